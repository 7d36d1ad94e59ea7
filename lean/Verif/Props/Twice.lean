import Verif.Props.Mixed
import Verif.Props.AnyVersion

/-! C118: a member given twice. -/

namespace MdRecover
open MdSpec

theorem sole_unique {D : Type} {devices : List (MdDevice D)} {x : MdDevice D} {k i : Nat}
    (h : SoleClaim devices x k) {y : MdDevice D} (hi : devices[i]? = some y) (hy : Claims devices y k) :
    ∃ l₁ l₂, devices = l₁ ++ x :: l₂ ∧ i = l₁.length ∧ ∀ z ∈ l₁ ++ l₂, ¬ Claims devices z k := by
  obtain ⟨l₁, l₂, rfl, -, h2⟩ := h
  refine ⟨l₁, l₂, rfl, ?_, h2⟩
  rcases Nat.lt_trichotomy i l₁.length with h | h | h
  · rw [List.getElem?_append_left h] at hi
    exact absurd hy (h2 y (List.mem_append_left _ (List.mem_of_getElem? hi)))
  · exact h
  · rw [List.getElem?_append_right (by omega), show i - l₁.length = (i - l₁.length - 1) + 1 by omega,
      List.getElem?_cons_succ] at hi
    exact absurd hy (h2 y (List.mem_append_right _ (List.mem_of_getElem? hi)))

section
variable {W D : Type}

/-- What stands in the way of data: two devices that claim to be the same member of the array. -/
theorem no_set_of_twice {devices : List (MdDevice D)} {i j k : Nat} {x y : MdDevice D} {t : Superblock} (hij : i ≠ j)
    (hi : devices[i]? = some x) (hj : devices[j]? = some y) (hx : Claims devices x k) (hy : Claims devices y k)
    (ht : ∃ z ∈ devices, z.superblock = .superblock t) (hk : k < t.raidDeviceCount) (hr : t.reshapeStatus = none) :
    ¬ ∃ L n c size, Agreed devices L n c size ∧ 3 ≤ n ∧ 0 < c ∧ ∀ k, k < n → ∃ x, SoleClaim devices x k := by
  rintro ⟨L, n, c, size, ⟨alg, -, ha⟩, -, -, h⟩
  obtain ⟨z, hz, hzt⟩ := ht
  have hkn : k < n := by
    rcases ha with ⟨-, ha⟩ | ⟨-, ha⟩
    · obtain ⟨s, hs, -, h1, -⟩ := ha z hz
      rw [hzt] at hs
      cases hs
      omega
    · obtain ⟨s, hs, st, h1, -⟩ := ha z hz
      rw [hzt] at hs
      cases hs
      rw [hr] at h1
      cases h1
  obtain ⟨u, hu⟩ := h k hkn
  obtain ⟨a₁, a₂, ha, ha', hn⟩ := sole_unique hu hi hx
  obtain ⟨b₁, b₂, hb, hb', -⟩ := sole_unique hu hj hy
  have hclaim : Claims devices u k := by
    obtain ⟨_, _, _, hc, _⟩ := hu
    exact hc
  rcases Nat.lt_trichotomy a₁.length b₁.length with hlt | hlt | hlt
  · have : devices[j]? = some u := by rw [hb, hb', List.getElem?_append_right (Nat.le_refl _), Nat.sub_self]; rfl
    rw [ha, List.getElem?_append_right (by omega), show j - a₁.length = (j - a₁.length - 1) + 1 by omega,
      List.getElem?_cons_succ] at this
    exact hn u (List.mem_append_right _ (List.mem_of_getElem? this)) hclaim
  · omega
  · have : devices[j]? = some u := by rw [hb, hb', List.getElem?_append_right (Nat.le_refl _), Nat.sub_self]; rfl
    rw [ha, List.getElem?_append_left (by omega)] at this
    exact hn u (List.mem_append_left _ (List.mem_of_getElem? this)) hclaim

/-- C118, any devices: if two of the devices claim to be the same member, one that the array has by its superblocks,
no sector is read, whatever the devices are and do. -/
theorem C118_no_data {ord : IterOrder} (hord : ord.Valid) (dev : BlockDev W D) (devices : List (MdDevice D))
    (hn : ∀ d ∈ devices, ∀ s, d.superblock = .superblock s → s.raidDeviceCount < U32)
    {i j k : Nat} {x y : MdDevice D} {t : Superblock} (hij : i ≠ j) (hi : devices[i]? = some x)
    (hj : devices[j]? = some y) (hx : Claims devices x k) (hy : Claims devices y k)
    (ht : ∃ z ∈ devices, z.superblock = .superblock t) (hk : k < t.raidDeviceCount) (hr : t.reshapeStatus = none)
    (b : Nat) (hb : b < U64) (buf : Bytes) (w : W) (v : Nat × Bytes) :
    ((MdArray.dev dev).readBlock b buf (w, MdArray.open ord devices)).2 ≠ .ok v := fun h =>
  no_set_of_twice hij hi hj hx hy ht hk hr (C115_complete hord dev devices hn b hb buf w v h)

end

/-- Numbers of members found on devices are 32-bit numbers. -/
theorem found_count_lt {content : Bytes} {s : Superblock} (h : Expected content (.superblock s)) :
    s.raidDeviceCount < U32 := by
  have h1 : ∀ off minor, (SuperblockV1.mk (slice content off 4096) minor).toSuperblock.raidDeviceCount < U32 := by
    intro off minor
    refine Nat.lt_of_lt_of_le (Endian.nat_lt .little (v1Layout.bytes (slice content off 4096) .raidDeviceCount)) ?_
    refine (Nat.pow_le_pow_right (by decide) (List.length_take_le _ _)).trans ?_
    decide
  have h0 : ∀ off e, (SuperblockV0.ofView e (slice content off 4096)).toSuperblock.raidDeviceCount < U32 := by
    intro off e
    refine Nat.lt_of_lt_of_le (Endian.nat_lt e (v0Layout.bytes (slice content off 4096) .raidDeviceCount)) ?_
    refine (Nat.pow_le_pow_right (by decide) (List.length_take_le _ _)).trans ?_
    decide
  cases h with
  | v12 => exact h1 _ _
  | v11 => exact h1 _ _
  | v10 => exact h1 _ _
  | v090 => exact h0 _ _

section
variable {fs : Bytes → Except Nat OsFile} {paths : List Bytes} {alg : Raid6Algorithm} {n c size : Nat}
  {file : Nat → OsFile} {sb : Nat → Superblock} {place : Nat → Nat}

/-- C118: the paths given are, in any order, those of all members of an array (and perhaps spares) and one more: that of
a block device whose superblock, with the same table, says that it is member `d`, too; as the same path given once more,
or a copy of the member.  All are opened, but no sector of the array is read, whatever the devices do from then on, and
no filesystem is opened on it. -/
theorem C118_program [Build] (h : MembersFound fs paths alg n c size file sb place) {path : Bytes} {g : OsFile}
    (hg : fs path = .ok g) {bs : Nat} (hbs : g.physical = some bs) (hbs0 : 0 < bs) (hbs1 : bs < U32)
    (hlen : g.content.length < U64) {t : Superblock} (ht : Expected (wholeBlocks g) (.superblock t)) {d : Nat}
    (hd : d < n) (htab : t.deviceRoles = (sb 0).deviceRoles)
    (hrole : t.deviceRoles[t.deviceRoleIndex]? = some ⟨d⟩)
    {given : List Bytes} (hperm : given.Perm (path :: paths)) (s : System)
    (hos : NativeDev.NoFailures s.os) (hi : s.nextId + given.length < U64) :
    ∃ s' devices, openPaths fs given s = (s', .ok (devices.map .ok)) ∧
      ∀ ord : IterOrder, ord.Valid → ∀ w : NativeKernel,
        (∀ b, b < U64 → ∀ buf v, ((MdArray.dev NativeDev.streamDev.toBlockDev).readBlock b buf
          (w, MdArray.open ord devices)).2 ≠ .ok v) ∧
        ∀ fs, (Ext4Fs.open (Reader.streamDev (MdArray.dev NativeDev.streamDev.toBlockDev))
          (Reader.new (MdArray.open ord devices)) w).2 ≠ .ok fs := by
  have hpos := h.nonempty
  have hall : ∀ p ∈ given, (p = path ∨ p ∈ paths) := fun p hp => List.mem_cons.1 (hperm.mem_iff.1 hp)
  have hsane : ∀ p ∈ given, ∀ f, fs p = .ok f → Sane f := by
    intro p hp f hf
    rcases hall p hp with rfl | hp
    · rw [hg] at hf
      cases hf
      intro bs' hbs'
      rw [hbs] at hbs'
      cases hbs'
      exact ⟨hbs0, hbs1, hlen⟩
    · exact h.sane p hp f hf
  have husable : ∀ p ∈ given, unusable fs p = none := by
    intro p hp
    rcases hall p hp with rfl | hp
    · simp [unusable, hg, hbs]
    · exact h.usable p hp
  obtain ⟨s', rs, hrun, hG, ho⟩ := openPaths_spec False NativeDev.NoFailures
    (fun _ _ h hl => ⟨fun c hc => h.1 c (hl.1 hc), fun c hc => h.2 c (hl.2 hc)⟩)
    (fun _ c h hc => h.1 c hc) (fun _ c h hc => h.2 c hc) fs given s hos hi hsane
  have hne : (partitionResult rs).2 = [] := by
    rw [ho.errors_eq, List.filterMap_eq_nil_iff]
    intro p hp
    rw [complaint, husable p hp]
    rfl
  obtain ⟨h1, h2⟩ := ho.opened hne
  have hfound : ∀ (j : Nat) (p : Bytes), given[j]? = some p → ∃ (m : MdDevice NativeDev) (f : OsFile), (partitionResult rs).1[j]? = some m ∧ fs p = .ok f ∧
      Expected (wholeBlocks f) m.superblock := by
    intro j p hj
    obtain ⟨m, g1, ⟨f, hf, -, hd, hc⟩, -⟩ := h2 j p hj
    exact ⟨m, f, g1, hf, hc.resolve_right fun h => h.1.elim⟩
  -- the superblock of any device given
  have hsb : ∀ x ∈ (partitionResult rs).1, ∃ s f, x.superblock = .superblock s ∧
      s.deviceRoles = (sb 0).deviceRoles ∧ Expected (wholeBlocks f) (.superblock s) := by
    intro x hx
    obtain ⟨j, hj, rfl⟩ := List.mem_iff_getElem.mp hx
    have hj' : j < given.length := by omega
    obtain ⟨m, f, e1, e2, e3⟩ := hfound j _ (List.getElem?_eq_getElem hj')
    rw [List.getElem?_eq_getElem hj] at e1
    cases e1
    rcases hall _ (List.getElem_mem hj') with hp | hp
    · rw [hp, hg] at e2
      cases e2
      have e := C36_expected_unique e3 ht
      exact ⟨t, g, e, htab, ht⟩
    · obtain ⟨i, hi', hp⟩ := List.mem_iff_getElem.mp hp
      rw [← hp, h.at_path i _ (List.getElem?_eq_getElem hi')] at e2
      cases e2
      have e := C36_expected_unique e3 (h.found i hi')
      exact ⟨sb i, file i, e, h.roles i 0 hi' hpos, h.found i hi'⟩
  have hcount : ∀ x ∈ (partitionResult rs).1, ∀ s, x.superblock = .superblock s → s.raidDeviceCount < U32 := by
    intro x hx s hs
    obtain ⟨s1, f, h3, -, h4⟩ := hsb x hx
    rw [h3] at hs
    cases hs
    exact found_count_lt h4
  have htabs : ∀ x ∈ (partitionResult rs).1, ∃ s, x.superblock = .superblock s ∧ s.deviceRoles = (sb 0).deviceRoles := by
    intro x hx
    obtain ⟨s1, f, h3, h4, -⟩ := hsb x hx
    exact ⟨s1, h3, h4⟩
  -- where the two devices are
  obtain ⟨hp, hr⟩ := h.placed d hd
  obtain ⟨i, j, hij, hi1, hj1⟩ : ∃ i j, i ≠ j ∧ given[i]? = some path ∧ given[j]? = some paths[place d] := by
    by_cases he : path = paths[place d]
    · have hc : 2 ≤ given.count path := by
        rw [hperm.count_eq, List.count_cons_self]
        have : 0 < paths.count path := List.count_pos_iff.2 (by rw [he]; exact List.getElem_mem hp)
        omega
      rw [← he]
      have hdup : ¬ given.Nodup := fun hn => by
        have := List.nodup_iff_count_le_one.1 hn path
        omega
      obtain ⟨i, hi1⟩ := List.getElem?_of_mem (hperm.mem_iff.2 List.mem_cons_self)
      obtain ⟨l₁, l₂, e1⟩ := List.append_of_mem (hperm.mem_iff.2 List.mem_cons_self)
      have hc2 : 1 ≤ (l₁ ++ l₂).count path := by
        rw [e1, List.count_append, List.count_cons_self] at hc
        rw [List.count_append]
        omega
      have hm := List.count_pos_iff.1 hc2
      have hat : given[l₁.length]? = some path := by
        rw [e1, List.getElem?_append_right (Nat.le_refl _), Nat.sub_self]; rfl
      rcases List.mem_append.1 hm with hm | hm
      · obtain ⟨u, hu⟩ := List.getElem?_of_mem hm
        have hlt := (List.getElem?_eq_some_iff.1 hu).1
        exact ⟨u, l₁.length, by omega, by rw [e1, List.getElem?_append_left hlt]; exact hu, hat⟩
      · obtain ⟨u, hu⟩ := List.getElem?_of_mem hm
        refine ⟨l₁.length + 1 + u, l₁.length, by omega, ?_, hat⟩
        rw [e1, List.getElem?_append_right (by omega), show l₁.length + 1 + u - l₁.length = u + 1 by omega,
          List.getElem?_cons_succ]
        exact hu
    · obtain ⟨i, hi1⟩ := List.getElem?_of_mem (hperm.mem_iff.2 (List.mem_cons_self (a := path) (l := paths)))
      obtain ⟨j, hj1⟩ := List.getElem?_of_mem (hperm.mem_iff.2 (List.mem_cons_of_mem path (List.getElem_mem hp)))
      exact ⟨i, j, fun e => he (Option.some.inj (hi1.symm.trans (e ▸ hj1))), hi1, hj1⟩
  obtain ⟨x, f, hx, hf, hxs⟩ := hfound i _ hi1
  obtain ⟨y, f', hy, hf', hys⟩ := hfound j _ hj1
  rw [hg] at hf
  cases hf
  rw [h.at_path _ _ (List.getElem?_eq_getElem hp)] at hf'
  cases hf'
  have hxs := C36_expected_unique hxs ht
  have hys := C36_expected_unique hys (h.found _ hp)
  have hn := h.numbers.2
  have hcx : Claims (partitionResult rs).1 x d :=
    (claims_of_same_table htabs (List.mem_of_getElem? hx) hxs d).2 ⟨htab ▸ hrole, by omega⟩
  have hcy : Claims (partitionResult rs).1 y d :=
    (claims_of_same_table htabs (List.mem_of_getElem? hy) hys d).2 ⟨h.roles _ 0 hp hpos ▸ hr, by omega⟩
  obtain ⟨-, g2, -, -, g5⟩ := h.geometry _ hp
  have hnone := no_set_of_twice hij hx hy hcx hcy ⟨y, List.mem_of_getElem? hy, hys⟩ (by rw [g2]; exact hd) g5
  exact ⟨s', (partitionResult rs).1, by rw [← partitionResult_ok rs hne]; exact hrun, fun ord hord w =>
    ⟨fun b hb buf v hv => hnone (C115_complete hord _ _ hcount b hb buf w v hv),
      fun e he => hnone (C115_ext4 hord _ _ hcount w e he)⟩⟩

end

/-- C118, the path of a member given once more, at any place among the others. -/
theorem C118_same_path [Build] {fs : Bytes → Except Nat OsFile} {paths : List Bytes} {alg : Raid6Algorithm}
    {n c size : Nat} {file : Nat → OsFile} {sb : Nat → Superblock} {place : Nat → Nat}
    (h : MembersFound fs paths alg n c size file sb place) {path : Bytes} {d : Nat} (hd : d < n)
    (hp : paths[place d]? = some path)
    {given : List Bytes} (hperm : given.Perm (path :: paths)) (s : System)
    (hos : NativeDev.NoFailures s.os) (hi : s.nextId + given.length < U64) :
    ∃ s' devices, openPaths fs given s = (s', .ok (devices.map .ok)) ∧
      ∀ ord : IterOrder, ord.Valid → ∀ w : NativeKernel,
        (∀ b, b < U64 → ∀ buf v, ((MdArray.dev NativeDev.streamDev.toBlockDev).readBlock b buf
          (w, MdArray.open ord devices)).2 ≠ .ok v) ∧
        ∀ fs, (Ext4Fs.open (Reader.streamDev (MdArray.dev NativeDev.streamDev.toBlockDev))
          (Reader.new (MdArray.open ord devices)) w).2 ≠ .ok fs := by
  obtain ⟨h1, h2⟩ := h.placed d hd
  obtain ⟨bs, h3, h4, h5, h6⟩ := h.device _ h1
  exact C118_program h (h.at_path _ _ hp) h3 h4 h5 h6 (h.found _ h1) hd (h.roles _ 0 h1 h.nonempty) h2 hperm s hos hi

/-- C118, the report: if two of the paths given have superblocks of the same device of an array, the report has a
complaint. -/
theorem C118_reported {ord ord' : IterOrder} (hord : ord.Valid) (hord' : ord'.Valid)
    (fs : Bytes → Except Nat OsFile) (paths : List Bytes) (s : System)
    (hos : NativeDev.NoFailures s.os) (hi : s.nextId + paths.length < U64)
    (hsane : ∀ path ∈ paths, ∀ f, fs path = .ok f → Sane f)
    {i j : Nat} {p q : Bytes} {f g : OsFile} {a b : Superblock} (hij : i ≠ j) (hp : paths[i]? = some p)
    (hq : paths[j]? = some q) (hf : fs p = .ok f) (hg : fs q = .ok g)
    (ha : Expected (wholeBlocks f) (.superblock a)) (hb : Expected (wholeBlocks g) (.superblock b))
    (he : a.deviceRoleIndex = b.deviceRoleIndex) :
    ¬ ∃ s' d, mainProgram ord ord' fs paths s = (s', .ok (.diagnosis d)) ∧ Clean d := by
  rw [C87_clean_iff hord hord' fs paths s hos hi hsane]
  rintro ⟨-, found, h⟩
  have h1 := DeviceSuperblock.superblock.inj (C36_expected_unique (h.has i p f hp hf) ha)
  have h2 := DeviceSuperblock.superblock.inj (C36_expected_unique (h.has j q g hq hg) hb)
  exact hij (h.distinct i j (List.getElem?_eq_some_iff.mp hp).1 (List.getElem?_eq_some_iff.mp hq).1
    (by rw [h1, h2, he]))

/-! ## A concrete case -/

theorem _root_.MdSpec.MembersAt.v1 {fs : Bytes → Except Nat OsFile} {paths : List Bytes} {L n c size : Nat}
    {file : Nat → OsFile} {sb : Nat → Mdp1} {place : Nat → Nat}
    (h : MembersAt fs paths L n c size file sb place) : MembersV1 fs paths L n c size file sb (fun _ => 0) place where
  at_path := h.at_path
  member := fun j hj => by
    obtain ⟨h1, h2, h3, h4, h5, ⟨off, h6, h7⟩, h8⟩ := h.member j hj
    exact ⟨h1, h2, h3, h4, h5, .v10 h8.1 h8.2 h6 h7⟩
  geometry := fun j hj => by
    obtain ⟨h1, h2, h3, h4, h5, h6, -⟩ := h.geometry j hj
    exact ⟨h1, h2, h3, h4, h5, h6⟩
  roles := h.roles
  placed := h.placed
  sole := h.sole
  numbers := h.numbers

open Fixture in
/-- C118, a case: the four disks and the spare from which files are read (`C89_case`), and the first of the disks once
more: no filesystem is opened, and the report has a complaint. -/
theorem C118_case {ord ord' : IterOrder} (hord : ord.Valid) (hord' : ord'.Valid) :
    (∃ s' devices, openPaths caseFs (casePaths ++ [[0]]) quiet = (s', .ok (devices.map .ok)) ∧
      ∀ fs, (Ext4Fs.open (Reader.streamDev (MdArray.dev NativeDev.streamDev.toBlockDev))
        (Reader.new (MdArray.open ord devices)) s'.os).2 ≠ .ok fs) ∧
    ¬ ∃ s' d, mainProgram ord ord' caseFs (casePaths ++ [[0]]) quiet = (s', .ok (.diagnosis d)) ∧ Clean d := by
  have h := C114_stored case_arrayAt.toMembersAt.v1 (alg := .leftSymmetric) rfl
  have hperm : (casePaths ++ [[0]]).Perm ([0] :: casePaths) := List.perm_append_singleton _ _
  constructor
  · obtain ⟨s', devices, h1, h2⟩ := C118_same_path h (d := 0) (by decide) (path := [0]) rfl hperm quiet quiet_noFailures
      (by decide)
    exact ⟨s', devices, h1, (h2 ord hord s'.os).2⟩
  · refine C118_reported hord hord' caseFs (casePaths ++ [[0]]) quiet quiet_noFailures (by decide) ?_ (i := 2) (j := 5)
      (by decide) (p := [0]) (q := [0]) rfl rfl (h.at_path 2 [0] rfl) (h.at_path 2 [0] rfl) (h.found 2 (by decide))
      (h.found 2 (by decide)) rfl
    intro p hp
    refine h.sane p ?_
    rcases List.mem_append.1 hp with hp | hp
    · exact hp
    · rw [List.mem_singleton.1 hp]
      decide

end MdRecover
