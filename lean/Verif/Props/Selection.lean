import Verif.Props.Twice

/-! C119: which selections of the disks of an array can be read.  C120: arrays with missing members. -/

namespace MdRecover
open MdSpec

/-- Whether disks make up an array depends on its members only. -/
theorem _root_.MdSpec.Raid6Set.congr {L n c size : Nat} {m m' : Nat → Disk} {content : Bytes}
    (h : Raid6Set L n c size m content) (he : ∀ d, d < n → m' d = m d) : Raid6Set L n c size m' content := by
  refine ⟨h.devices, h.devices_lt, h.chunk, h.whole_chunks, h.bytes_lt, h.length, fun d hd => ?_,
    fun b hb row d hrow hr => ?_, fun s hs row hrow p hp i hi => ?_⟩
  · rw [he d hd]
    exact h.member_size d hd
  · rw [he d (by rw [← raid6Row_length h.devices hrow]; exact (List.getElem?_eq_some_iff.1 hr).1)]
    exact h.data b hb row d hrow hr
  · have hl := raid6Row_length h.devices hrow
    have hmap : (dataDevices row).map (fun d => ((m' d).sector s).getD i 0) =
        (dataDevices row).map fun d => ((m d).sector s).getD i 0 := by
      refine List.map_congr_left fun d hd => ?_
      have := List.mem_range.1 (List.mem_filter.1 hd).1
      rw [he d (by omega)]
    show ((m' p).sector s).getD i 0 = xorBytes ((dataDevices row).map fun d => ((m' d).sector s).getD i 0)
    rw [hmap, he p (by rw [← hl]; exact (List.getElem?_eq_some_iff.1 hp).1)]
    exact h.parity s hs row hrow p hp i hi

/-- The paths with the numbers `idx`, in that order, a number perhaps more than once. -/
def chosen (paths : List Bytes) (idx : List Nat) : List Bytes := idx.map fun j => paths.getD j []

section
variable {fs : Bytes → Except Nat OsFile} {paths : List Bytes} {alg : Raid6Algorithm} {L n c size : Nat}
  {file : Nat → OsFile} {sb : Nat → Superblock} {place : Nat → Nat}

theorem chosen_get {idx : List Nat} (hidx : ∀ j ∈ idx, j < paths.length) {k : Nat} {p : Bytes}
    (h : (chosen paths idx)[k]? = some p) : ∃ j, idx[k]? = some j ∧ j < paths.length ∧ paths[j]? = some p := by
  rw [chosen, List.getElem?_map, Option.map_eq_some_iff] at h
  obtain ⟨j, hj, rfl⟩ := h
  have hlt := hidx j (List.mem_of_getElem? hj)
  refine ⟨j, hj, hlt, ?_⟩
  rw [List.getD_eq_getElem?_getD, List.getElem?_eq_getElem hlt]
  rfl

/-- The devices of a selection, with the superblocks found on them. -/
theorem opened_chosen (h : MembersFound fs paths alg n c size file sb place) {idx : List Nat}
    (hidx : ∀ j ∈ idx, j < paths.length) (s : System) (hos : NativeDev.NoFailures s.os)
    (hi : s.nextId + idx.length < U64) :
    ∃ (s' : System) (devices : List (MdDevice NativeDev)), openPaths fs (chosen paths idx) s = (s', .ok (devices.map .ok)) ∧ NativeDev.NoFailures s'.os ∧
      devices.length = idx.length ∧ ∀ (k j : Nat), idx[k]? = some j → ∃ x : MdDevice NativeDev, devices[k]? = some x ∧
        x.superblock = .superblock (sb j) ∧ NativeDev.IsDisk x.device (asDisk (file j)) := by
  have hmem : ∀ p ∈ chosen paths idx, p ∈ paths := by
    intro p hp
    obtain ⟨k, hk⟩ := List.getElem?_of_mem hp
    obtain ⟨j, -, -, h1⟩ := chosen_get hidx hk
    exact List.mem_of_getElem? h1
  obtain ⟨s', rs, hrun, hG, ho⟩ := openPaths_spec False NativeDev.NoFailures
    (fun _ _ h hl => ⟨fun c hc => h.1 c (hl.1 hc), fun c hc => h.2 c (hl.2 hc)⟩)
    (fun _ c h hc => h.1 c hc) (fun _ c h hc => h.2 c hc) fs (chosen paths idx) s hos
    (by rw [chosen, List.length_map]; exact hi) fun p hp => h.sane p (hmem p hp)
  have hne : (partitionResult rs).2 = [] := by
    rw [ho.errors_eq, List.filterMap_eq_nil_iff]
    intro p hp
    rw [complaint, h.usable p (hmem p hp)]
    rfl
  obtain ⟨h1, h2⟩ := ho.opened hne
  refine ⟨s', (partitionResult rs).1, by rw [← partitionResult_ok rs hne]; exact hrun, hG,
    by rw [h1, chosen, List.length_map], fun k j hk => ?_⟩
  have hj := hidx j (List.mem_of_getElem? hk)
  have hp : (chosen paths idx)[k]? = some paths[j] := by
    rw [chosen, List.getElem?_map, hk, Option.map_some, List.getD_eq_getElem?_getD, List.getElem?_eq_getElem hj]
    rfl
  obtain ⟨m, g1, ⟨f, hf, -, hd, hc⟩, -⟩ := h2 k _ hp
  rw [h.at_path j _ (List.getElem?_eq_getElem hj)] at hf
  cases hf
  exact ⟨m, g1, C36_expected_unique (hc.resolve_right fun h => h.1.elim) (h.found j hj), hd⟩

/-- C119, what can be read: if each member is chosen exactly once, the disks chosen make up the array. -/
theorem C119_complete (h : MembersFound fs paths alg n c size file sb place) {idx : List Nat}
    (hidx : ∀ j ∈ idx, j < paths.length) {at_ : Nat → Nat} (hat : ∀ d, d < n → idx[at_ d]? = some (place d))
    (honce : ∀ d k, d < n → idx[k]? = some (place d) → k = at_ d) :
    MembersFound fs (chosen paths idx) alg n c size (fun k => file (idx.getD k 0)) (fun k => sb (idx.getD k 0)) at_ := by
  have hg : ∀ k, k < (chosen paths idx).length → idx[k]? = some (idx.getD k 0) ∧ idx.getD k 0 < paths.length := by
    intro k hk
    rw [chosen, List.length_map] at hk
    have e : idx[k]? = some (idx.getD k 0) := by
      rw [List.getD_eq_getElem?_getD, List.getElem?_eq_getElem hk]
      rfl
    exact ⟨e, hidx _ (List.mem_of_getElem? e)⟩
  have hgd : ∀ d, d < n → idx.getD (at_ d) 0 = place d := by
    intro d hd
    rw [List.getD_eq_getElem?_getD, hat d hd]
    rfl
  refine ⟨fun k p hk => ?_, fun k hk => h.device _ (hg k hk).2, fun k hk => h.found _ (hg k hk).2,
    fun k hk => h.geometry _ (hg k hk).2, fun i k hi hk => h.roles _ _ (hg i hi).2 (hg k hk).2, fun d hd => ?_,
    fun k d hk hd hr => ?_, h.numbers⟩
  · obtain ⟨j, h1, h2, h3⟩ := chosen_get hidx hk
    have e := (hg k (List.getElem?_eq_some_iff.1 hk).1).1
    rw [h1] at e
    rw [← Option.some.inj e]
    exact h.at_path j p h3
  · refine ⟨?_, ?_⟩
    · rw [chosen, List.length_map]
      exact (List.getElem?_eq_some_iff.1 (hat d hd)).1
    · show (sb (idx.getD (at_ d) 0)).deviceRoles[(sb (idx.getD (at_ d) 0)).deviceRoleIndex]? = _
      rw [hgd d hd]
      exact (h.placed d hd).2
  · obtain ⟨h1, h2⟩ := hg k hk
    refine honce d k hd ?_
    rw [h1, h.sole _ d h2 hd hr]

/-- C119, what cannot be read: if some member is not chosen, or more than once, the disks chosen are opened, but no
sector of the array is read, whatever the devices do from then on, and no filesystem is opened on it. -/
theorem C119_refused [Build] (h : MembersFound fs paths alg n c size file sb place) {idx : List Nat}
    (hidx : ∀ j ∈ idx, j < paths.length) {d : Nat} (hd : d < n) (hnot : ¬ ∃! k : Nat, idx[k]? = some (place d))
    (s : System) (hos : NativeDev.NoFailures s.os) (hi : s.nextId + idx.length < U64) :
    ∃ (s' : System) (devices : List (MdDevice NativeDev)), openPaths fs (chosen paths idx) s = (s', .ok (devices.map .ok)) ∧
      ∀ ord : IterOrder, ord.Valid → ∀ w : NativeKernel,
        (∀ b, b < U64 → ∀ buf v, ((MdArray.dev NativeDev.streamDev.toBlockDev).readBlock b buf
          (w, MdArray.open ord devices)).2 ≠ .ok v) ∧
        ∀ fs, (Ext4Fs.open (Reader.streamDev (MdArray.dev NativeDev.streamDev.toBlockDev))
          (Reader.new (MdArray.open ord devices)) w).2 ≠ .ok fs := by
  obtain ⟨s', devices, hrun, -, hlen, hdev⟩ := opened_chosen h hidx s hos hi
  have hpos := h.nonempty
  have hof : ∀ x ∈ devices, ∃ k j : Nat, devices[k]? = some x ∧ idx[k]? = some j ∧ j < paths.length ∧
      x.superblock = .superblock (sb j) := by
    intro x hx
    obtain ⟨k, hk⟩ := List.getElem?_of_mem hx
    have hlt := (List.getElem?_eq_some_iff.1 hk).1
    have e := List.getElem?_eq_getElem (l := idx) (i := k) (by omega)
    obtain ⟨x', h1, h2, -⟩ := hdev k _ e
    rw [hk] at h1
    cases h1
    exact ⟨k, _, hk, e, hidx _ (List.mem_of_getElem? e), h2⟩
  have hcount : ∀ x ∈ devices, ∀ s, x.superblock = .superblock s → s.raidDeviceCount < U32 := by
    intro x hx s hs
    obtain ⟨k, j, -, -, h1, h2⟩ := hof x hx
    rw [h2] at hs
    cases hs
    exact found_count_lt (h.found j h1)
  have htabs : ∀ x ∈ devices, ∃ s, x.superblock = .superblock s ∧ s.deviceRoles = (sb 0).deviceRoles := by
    intro x hx
    obtain ⟨k, j, -, -, h1, h2⟩ := hof x hx
    exact ⟨_, h2, h.roles j 0 h1 hpos⟩
  have hn := h.numbers.2
  have hclaim : ∀ x ∈ devices, ∀ j, j < paths.length → x.superblock = .superblock (sb j) →
      (Claims devices x d ↔ (sb j).deviceRoles[(sb j).deviceRoleIndex]? = some ⟨d⟩) := by
    intro x hx j hj hs
    rw [claims_of_same_table htabs hx hs d, h.roles j 0 hj hpos]
    exact and_iff_left (by omega)
  have hnone : ¬ ∃ L n c size, Agreed devices L n c size ∧ 3 ≤ n ∧ 0 < c ∧
      ∀ k, k < n → ∃ x, SoleClaim devices x k := by
    by_cases hex : ∃ k : Nat, idx[k]? = some (place d)
    · obtain ⟨k1, hk1⟩ := hex
      obtain ⟨k2, hk2, hne⟩ : ∃ k2 : Nat, idx[k2]? = some (place d) ∧ k1 ≠ k2 := by
        by_contra hno
        exact hnot ⟨k1, hk1, fun k hk => by
          by_contra hne
          exact hno ⟨k, hk, fun e => hne e.symm⟩⟩
      obtain ⟨hp, hr⟩ := h.placed d hd
      obtain ⟨x, hx, hxs, -⟩ := hdev k1 _ hk1
      obtain ⟨y, hy, hys, -⟩ := hdev k2 _ hk2
      obtain ⟨-, g2, -, -, g5⟩ := h.geometry _ hp
      exact no_set_of_twice hne hx hy ((hclaim x (List.mem_of_getElem? hx) _ hp hxs).2 hr)
        ((hclaim y (List.mem_of_getElem? hy) _ hp hys).2 hr) ⟨y, List.mem_of_getElem? hy, hys⟩ (by rw [g2]; exact hd) g5
    · rintro ⟨L, n', c', size', ⟨alg', -, ha⟩, -, -, hall⟩
      have hdn : d < n' := by
        have hne : devices ≠ [] := by
          rcases ha with ⟨h1, -⟩ | ⟨h1, -⟩ <;> exact h1
        obtain ⟨x, hx⟩ := List.exists_mem_of_ne_nil _ hne
        obtain ⟨k, j, -, -, h1, h2⟩ := hof x hx
        obtain ⟨-, g2, -, -, g5⟩ := h.geometry j h1
        rcases ha with ⟨-, ha⟩ | ⟨-, ha⟩
        · obtain ⟨s1, hs, -, h3, -⟩ := ha x hx
          rw [h2] at hs
          cases hs
          omega
        · obtain ⟨s1, hs, st, h3, -⟩ := ha x hx
          rw [h2] at hs
          cases hs
          rw [g5] at h3
          cases h3
      obtain ⟨x, l₁, l₂, hl, hc, -⟩ := hall d hdn
      have hx : x ∈ devices := by rw [hl]; exact List.mem_append_right _ List.mem_cons_self
      obtain ⟨k, j, -, hk, h1, h2⟩ := hof x hx
      have hr := (hclaim x hx j h1 h2).1 hc
      exact hex ⟨k, by rw [hk, h.sole j d h1 hd hr]⟩
  exact ⟨s', devices, hrun, fun ord hord w =>
    ⟨fun b hb buf v hv => hnone (C115_complete hord _ _ hcount b hb buf w v hv),
      fun e he => hnone (C115_ext4 hord _ _ hcount w e he)⟩⟩

/-- C119: of the disks of an array, some are given, in any order, some perhaps several times.  The files on the array
are seen as they are, if each member is given exactly once; otherwise nothing is read of the array at all. -/
theorem C119_exactly_once [Build] (h : MembersFound fs paths alg n c size file sb place)
    (hL : Raid6Algorithm.fromLayout L = some alg) {content : Bytes}
    (hset : Raid6Set L n c size (fun d => asDisk (file (place d))) content) {idx : List Nat}
    (hidx : ∀ j ∈ idx, j < paths.length) (s : System) (hos : NativeDev.NoFailures s.os)
    (hi : s.nextId + idx.length < U64) :
    ∃ (s' : System) (devices : List (MdDevice NativeDev)), openPaths fs (chosen paths idx) s = (s', .ok (devices.map .ok)) ∧
      ((∀ d, d < n → ∃! k : Nat, idx[k]? = some (place d)) → ∀ ord : IterOrder, ord.Valid →
        ∀ ops : List (Nat × SessionCall), (∀ x ∈ ops, x.2.wellTyped) →
          sessionRun (Reader.streamDev (MdArray.dev NativeDev.streamDev.toBlockDev))
              (s'.os, [.device (Reader.new (MdArray.open ord devices))]) ops =
            sessionRun InMemory.streamDev ((), [.device (InMemory.new content 512)]) ops) ∧
      ((¬ ∀ d, d < n → ∃! k : Nat, idx[k]? = some (place d)) → ∀ ord : IterOrder, ord.Valid → ∀ w : NativeKernel,
        (∀ b, b < U64 → ∀ buf v, ((MdArray.dev NativeDev.streamDev.toBlockDev).readBlock b buf
          (w, MdArray.open ord devices)).2 ≠ .ok v) ∧
        ∀ fs, (Ext4Fs.open (Reader.streamDev (MdArray.dev NativeDev.streamDev.toBlockDev))
          (Reader.new (MdArray.open ord devices)) w).2 ≠ .ok fs) := by
  by_cases hall : ∀ d, d < n → ∃! k : Nat, idx[k]? = some (place d)
  · have hex : ∀ d, ∃ k : Nat, d < n → idx[k]? = some (place d) ∧ ∀ k' : Nat, idx[k']? = some (place d) → k' = k := by
      intro d
      by_cases hd : d < n
      · obtain ⟨k, h1, h2⟩ := hall d hd
        exact ⟨k, fun _ => ⟨h1, h2⟩⟩
      · exact ⟨0, fun h => absurd h hd⟩
    obtain ⟨at_, hat⟩ := Classical.axiomOfChoice hex
    have hc := C119_complete h hidx (at_ := at_) (fun d hd => (hat d hd).1) fun d k hd => (hat d hd).2 k
    have hset' : Raid6Set L n c size (fun d => asDisk (file (idx.getD (at_ d) 0))) content := by
      have e : ∀ d, d < n → idx.getD (at_ d) 0 = place d := by
        intro d hd
        rw [List.getD_eq_getElem?_getD, (hat d hd).1]
        rfl
      exact hset.congr fun d hd => by rw [e d hd]
    obtain ⟨s', devices, h1, h2⟩ := C114_right hc hL hset' s hos (by rw [chosen, List.length_map]; exact hi)
    exact ⟨s', devices, h1, fun _ => h2, fun hn => absurd hall hn⟩
  · obtain ⟨d, hd⟩ := not_forall.1 hall
    obtain ⟨hd, hnot⟩ := Classical.not_imp.1 hd
    obtain ⟨s', devices, h1, h2⟩ := C119_refused h hidx hd hnot s hos hi
    exact ⟨s', devices, h1, fun hn => absurd hn hall, fun _ => h2⟩

/-- C120 (partial: false as it stands, see `C120_missing_refused`).  If none of the members is missing, the files on the
array are seen as they are, in whatever order the disks are given, with whichever of the spares. -/
theorem C120_none_missing_partial [Build] (h : MembersFound fs paths alg n c size file sb place)
    (hL : Raid6Algorithm.fromLayout L = some alg) {content : Bytes}
    (hset : Raid6Set L n c size (fun d => asDisk (file (place d))) content) {idx : List Nat}
    (hidx : ∀ j ∈ idx, j < paths.length) (hnd : idx.Nodup) (hall : ∀ d, d < n → place d ∈ idx)
    (s : System) (hos : NativeDev.NoFailures s.os) (hi : s.nextId + idx.length < U64) :
    ∃ (s' : System) (devices : List (MdDevice NativeDev)), openPaths fs (chosen paths idx) s = (s', .ok (devices.map .ok)) ∧
      ∀ ord : IterOrder, ord.Valid → ∀ ops : List (Nat × SessionCall), (∀ x ∈ ops, x.2.wellTyped) →
        sessionRun (Reader.streamDev (MdArray.dev NativeDev.streamDev.toBlockDev))
            (s'.os, [.device (Reader.new (MdArray.open ord devices))]) ops =
          sessionRun InMemory.streamDev ((), [.device (InMemory.new content 512)]) ops := by
  obtain ⟨s', devices, h1, h2, -⟩ := C119_exactly_once h hL hset hidx s hos hi
  refine ⟨s', devices, h1, h2 fun d hd => ?_⟩
  obtain ⟨k, hk⟩ := List.getElem?_of_mem (hall d hd)
  refine ⟨k, hk, fun k' hk' => ?_⟩
  obtain ⟨h3, h4⟩ := List.getElem?_eq_some_iff.1 hk
  obtain ⟨h5, h6⟩ := List.getElem?_eq_some_iff.1 hk'
  exact (hnd.getElem_inj_iff (hi := h5) (hj := h3)).1 (h6.trans h4.symm)

/-- C120 is false of every array: if one member is missing, although the data on it could be calculated from those on
the other disks, nothing is read of the array, whatever the devices do. -/
theorem C120_missing_refused [Build] (h : MembersFound fs paths alg n c size file sb place) {idx : List Nat}
    (hidx : ∀ j ∈ idx, j < paths.length) {d : Nat} (hd : d < n) (hmiss : place d ∉ idx)
    (s : System) (hos : NativeDev.NoFailures s.os) (hi : s.nextId + idx.length < U64) :
    ∃ (s' : System) (devices : List (MdDevice NativeDev)), openPaths fs (chosen paths idx) s = (s', .ok (devices.map .ok)) ∧
      ∀ ord : IterOrder, ord.Valid → ∀ w : NativeKernel,
        (∀ b, b < U64 → ∀ buf v, ((MdArray.dev NativeDev.streamDev.toBlockDev).readBlock b buf
          (w, MdArray.open ord devices)).2 ≠ .ok v) ∧
        ∀ fs, (Ext4Fs.open (Reader.streamDev (MdArray.dev NativeDev.streamDev.toBlockDev))
          (Reader.new (MdArray.open ord devices)) w).2 ≠ .ok fs :=
  C119_refused h hidx hd (fun ⟨_, hk, _⟩ => hmiss (List.mem_of_getElem? hk)) s hos hi

end

open Fixture

/-- C119, a case: of the five disks of the fixture, the four members are given in another order, without the spare: the
files are seen.  If the first of the members is left out and another given twice, nothing is read. -/
theorem C119_case [Build] :
    (∃ (s' : System) (devices : List (MdDevice NativeDev)), openPaths caseFs [[1], [0], [3], [2]] quiet = (s', .ok (devices.map .ok)) ∧
      ∀ ord : IterOrder, ord.Valid → ∀ ops : List (Nat × SessionCall), (∀ x ∈ ops, x.2.wellTyped) →
        sessionRun (Reader.streamDev (MdArray.dev NativeDev.streamDev.toBlockDev))
            (s'.os, [.device (Reader.new (MdArray.open ord devices))]) ops =
          sessionRun InMemory.streamDev ((), [.device (InMemory.new smallFs 512)]) ops) ∧
    ∃ (s' : System) (devices : List (MdDevice NativeDev)), openPaths caseFs [[1], [1], [3], [2]] quiet = (s', .ok (devices.map .ok)) ∧
      ∀ ord : IterOrder, ord.Valid → ∀ w : NativeKernel,
        ∀ fs, (Ext4Fs.open (Reader.streamDev (MdArray.dev NativeDev.streamDev.toBlockDev))
          (Reader.new (MdArray.open ord devices)) w).2 ≠ .ok fs := by
  have h := C114_stored case_arrayAt.toMembersAt.v1 (alg := .leftSymmetric) rfl
  constructor
  · exact C120_none_missing_partial h (L := 2) rfl case_arrayAt.data (idx := [4, 2, 3, 0]) (by decide) (by decide)
      (by decide) quiet quiet_noFailures (by decide)
  · obtain ⟨s', devices, h1, h2⟩ := C119_refused h (idx := [4, 4, 3, 0]) (by decide) (d := 0) (by decide)
      (fun ⟨_, hk, _⟩ => absurd (List.mem_of_getElem? hk) (by decide)) quiet quiet_noFailures (by decide)
    exact ⟨s', devices, h1, fun ord hord w => (h2 ord hord w).2⟩

/-- C120 is false, a case: two of the four members are missing.  The report has no complaint, yet nothing is read. -/
theorem C120_case {ord ord' : IterOrder} (hord : ord.Valid) (hord' : ord'.Valid) :
    (∃ s' d, mainProgram ord ord' caseFs [[0], [2]] quiet = (s', .ok (.diagnosis d)) ∧ Clean d) ∧
    ∃ (s' : System) (devices : List (MdDevice NativeDev)), openPaths caseFs [[0], [2]] quiet = (s', .ok (devices.map .ok)) ∧
      ∀ w : NativeKernel,
        (∀ b, b < U64 → ∀ buf v, ((MdArray.dev NativeDev.streamDev.toBlockDev).readBlock b buf
          (w, MdArray.open ord devices)).2 ≠ .ok v) ∧
        ∀ fs, (Ext4Fs.open (Reader.streamDev (MdArray.dev NativeDev.streamDev.toBlockDev))
          (Reader.new (MdArray.open ord devices)) w).2 ≠ .ok fs := by
  refine ⟨(C88_missing_members_unreported hord hord').1, ?_⟩
  obtain ⟨s', devices, h1, h2⟩ := C120_missing_refused
    (C114_stored case_arrayAt.toMembersAt.v1 (alg := .leftSymmetric) rfl) (idx := [2, 0]) (by decide) (d := 1) (by decide)
    (by decide) quiet quiet_noFailures (by decide)
  exact ⟨s', devices, h1, h2 ord hord⟩

end MdRecover
