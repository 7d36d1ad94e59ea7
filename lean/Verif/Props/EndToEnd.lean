import Verif.Props.Clean
import Verif.Props.Ext4Session
import Verif.Spec.EndToEnd

/-! C89: from the disks of an array to the files on it. -/

namespace MdRecover
open MdSpec

/-! ## What is found on the members -/

/-- The superblock found on a member. -/
def found10 (m : Mdp1) : Superblock := (SuperblockV1.mk m.encode 0).toSuperblock

theorem wholeBlocks_member {f : OsFile} {m : Mdp1} (h : Member10 f m) : wholeBlocks f = f.content := by
  obtain ⟨bs, hp, h0, -, hd⟩ := h.blocks
  simp only [wholeBlocks, hp]
  rw [Nat.div_mul_cancel hd, List.take_length]

theorem _root_.MdSpec.Member10.sane {f : OsFile} {m : Mdp1} (h : Member10 f m) : Sane f := by
  obtain ⟨bs, hp, h0, h1, -⟩ := h.blocks
  intro bs' hbs'
  rw [hp] at hbs'
  cases hbs'
  exact ⟨h0, h1, h.size.2⟩

theorem _root_.MdSpec.Member10.usable {fs : Bytes → Except Nat OsFile} {path : Bytes} {f : OsFile} {m : Mdp1}
    (h : Member10 f m) (hf : fs path = .ok f) : unusable fs path = none := by
  obtain ⟨bs, hp, -⟩ := h.blocks
  simp [unusable, hf, hp]

/-- The stored superblock is version-1 at its place. -/
theorem _root_.MdSpec.Member10.v1At {f : OsFile} {m : Mdp1} (h : Member10 f m) {off : Nat}
    (hs : slice f.content off 4096 = m.encode) : V1At f.content off := by
  have h1 : ∀ a k, a + k ≤ 4096 → slice f.content (off + a) k = slice m.encode a k := by
    intro a k hak
    rw [← hs]
    unfold slice
    rw [List.drop_take, List.drop_drop, List.take_take]
    congr 1
    omega
  refine ⟨?_, ?_⟩
  · have := h1 0 4 (by omega)
    rw [Nat.add_zero] at this
    rw [this, Mdp1.slice_magic h.wf, leNat_leBytes h.wf.magic, h.magic]
  · rw [h1 4 4 (by omega), Mdp1.slice_major_version h.wf, leNat_leBytes h.wf.major_version, h.version]

theorem _root_.MdSpec.Member10.expected {f : OsFile} {m : Mdp1} (h : Member10 f m) :
    Expected f.content (.superblock (found10 m)) := by
  obtain ⟨off, hp, hs⟩ := h.stored
  have := Expected.v10 h.size.1 h.only.1 h.only.2 hp (h.v1At hs)
  rw [v1Result, hs] at this
  exact this

/-- Besides this superblock there may only be one of version 0. -/
theorem _root_.MdSpec.Member10.genuine {f : OsFile} {m : Mdp1} (h : Member10 f m)
    (h0 : ∀ off e, Place090 f.content.length off → ¬ V0At f.content off e) {x : DeviceSuperblock}
    (hx : Genuine f.content x) : x = .superblock (found10 m) := by
  obtain ⟨off, hp, hs⟩ := h.stored
  rcases hx with ⟨h1, -⟩ | ⟨h1, -⟩ | ⟨off', hp', -, rfl⟩ | ⟨off', e, hp', h1, -⟩
  · exact absurd h1 h.only.1
  · exact absurd h1 h.only.2
  · rw [place10_unique hp' hp, v1Result, hs]
    rfl
  · exact absurd h1 (h0 off' e hp')

section
variable {fs : Bytes → Except Nat OsFile} {paths : List Bytes} {L n c size : Nat} {content : Bytes}
  {file : Nat → OsFile} {sb : Nat → Mdp1} {place : Nat → Nat}

/-- What the fields of the found superblocks are. -/
theorem found10_fields {m : Mdp1} (h : m.Wf) :
    (found10 m).arrayUuid = .long m.set_uuid ∧ (found10 m).arrayName = some m.set_name ∧
    (found10 m).algorithm = MdAlgorithm.fromLevelAndLayout m.level m.layout ∧
    (found10 m).sectorsPerDevice = m.size ∧ (found10 m).chunkSize = m.chunksize ∧
    (found10 m).raidDeviceCount = m.raid_disks ∧
    (m.feature_map / 4 % 2 = 0 → (found10 m).reshapeStatus = none) ∧
    (found10 m).deviceRoleIndex = m.dev_number ∧ (found10 m).eventCount = m.events ∧
    (found10 m).deviceRoles = (roleTable m).map Role.mk := by
  obtain ⟨-, -, -, h1, h2, h3, h4, h5, h6, h7, -, h8, h9, h10, -⟩ := C38_round_trip m h 0
  refine ⟨h1, h2, h3, h4, h5, h6, fun hf => ?_, h8, h9, h10⟩
  refine Eq.trans h7 (if_neg ?_)
  omega

theorem _root_.MdSpec.MembersAt.nonempty (h : MembersAt fs paths L n c size file sb place) : 0 < paths.length := by
  have := (h.placed 0 h.numbers.1).1
  omega

/-- Devices on which the superblocks were found make up the array. -/
theorem _root_.MdSpec.MembersAt.readable (h : MembersAt fs paths L n c size file sb place) {alg : Raid6Algorithm}
    (hL : Raid6Algorithm.fromLayout L = some alg) {devices : List (MdDevice NativeDev)}
    (hlen : devices.length = paths.length)
    (hdev : ∀ j (hj : j < devices.length), devices[j].superblock = .superblock (found10 (sb j)) ∧
      NativeDev.IsDisk devices[j].device (asDisk (file j))) :
    ReadableSet NativeDev.IsDisk alg n c size (fun d => asDisk (file (place d))) devices := by
  have hpos := h.nonempty
  have htab : ∀ x ∈ devices, ∃ s, x.superblock = .superblock s ∧
      s.deviceRoles = (roleTable (sb 0)).map Role.mk := by
    intro x hx
    obtain ⟨j, hj, rfl⟩ := List.mem_iff_getElem.mp hx
    obtain ⟨-, -, -, -, -, -, -, -, -, h10⟩ := found10_fields (h.member j (by omega)).wf
    exact ⟨_, (hdev j hj).1, by rw [h10, h.roles j 0 (by omega) hpos]⟩
  have hcl : ∀ j (hj : j < devices.length) d, Claims devices devices[j] d ↔
      (roleTable (sb j))[(sb j).dev_number]? = some d ∧ d ≤ 0xfeff := by
    intro j hj d
    obtain ⟨-, -, -, -, -, -, -, h8, -⟩ := found10_fields (h.member j (by omega)).wf
    rw [claims_of_same_table htab (List.getElem_mem hj) (hdev j hj).1, h8, List.getElem?_map,
      h.roles j 0 (by omega) hpos]
    refine and_congr_left fun _ => ?_
    cases (roleTable (sb 0))[(sb j).dev_number]? <;> simp
  refine ⟨fun x hx => ?_, ⟨?_, fun x hx => ?_⟩, fun d hd => ?_⟩
  · obtain ⟨j, hj, rfl⟩ := List.mem_iff_getElem.mp hx
    exact ⟨_, (hdev j hj).2⟩
  · intro he
    rw [he] at hlen
    simp only [List.length_nil] at hlen
    omega
  · obtain ⟨j, hj, rfl⟩ := List.mem_iff_getElem.mp hx
    obtain ⟨-, -, h3, h4, h5, h6, h7, -⟩ := found10_fields (h.member j (by omega)).wf
    obtain ⟨g1, g2, g3, g4, g5, g6, -⟩ := h.geometry j (by omega)
    refine ⟨_, (hdev j hj).1, ?_, h6.trans g3, h4.trans g4, h5.trans g5, h7 g6⟩
    rw [h3, g1, g2]
    simp only [MdAlgorithm.fromLevelAndLayout, hL]
    rfl
  · obtain ⟨hp, hr⟩ := h.placed d hd
    have hp' : place d < devices.length := by omega
    have hn := h.numbers.2
    refine ⟨devices[place d], ⟨devices.take (place d), devices.drop (place d + 1), ?_,
      (hcl _ hp' d).mpr ⟨hr, by omega⟩, fun y hy hc => ?_⟩, (hdev _ hp').2⟩
    · rw [List.getElem_cons_drop, List.take_append_drop]
    · have key : ∃ (j : Nat) (hj : j < devices.length), j ≠ place d ∧ devices[j] = y := by
        rcases List.mem_append.mp hy with hy | hy
        · obtain ⟨j, hj, e⟩ := List.mem_take_iff_getElem.mp hy
          exact ⟨j, by omega, by omega, e⟩
        · obtain ⟨j, hj, e⟩ := List.mem_drop_iff_getElem.mp hy
          exact ⟨j + (place d + 1), by omega, by omega, by rw [← e]; congr 1; omega⟩
      obtain ⟨j, hj, hne, rfl⟩ := key
      exact hne (h.sole j d (by omega) hd ((hcl j hj d).mp hc).1)

theorem partitionResult_ok {E A : Type} : ∀ rs : List (Except E A), (partitionResult rs).2 = [] →
    rs = (partitionResult rs).1.map .ok
  | [], _ => rfl
  | .ok a :: rs, h => by
    rw [partitionResult] at h ⊢
    rw [List.map_cons, ← partitionResult_ok rs h]
  | .error e :: rs, h => by rw [partitionResult] at h; cases h

theorem mem_of_partitionResult {E A : Type} {e : E} : ∀ {rs : List (Except E A)},
    e ∈ (partitionResult rs).2 → .error e ∈ rs
  | .ok a :: rs, h => by
    rw [partitionResult] at h
    exact List.mem_cons_of_mem _ (mem_of_partitionResult h)
  | .error e' :: rs, h => by
    rw [partitionResult] at h
    rcases List.mem_cons.mp h with rfl | h
    · exact List.mem_cons_self
    · exact List.mem_cons_of_mem _ (mem_of_partitionResult h)

/-! ## C89 -/

theorem _root_.MdSpec.MembersAt.sane (h : MembersAt fs paths L n c size file sb place) :
    ∀ path ∈ paths, ∀ f, fs path = .ok f → Sane f := by
  intro path hp f hf
  obtain ⟨j, hj, rfl⟩ := List.mem_iff_getElem.mp hp
  rw [h.at_path j _ (List.getElem?_eq_getElem hj)] at hf
  cases hf
  exact (h.member j hj).sane

theorem _root_.MdSpec.MembersAt.usable (h : MembersAt fs paths L n c size file sb place) :
    ∀ path ∈ paths, unusable fs path = none := by
  intro path hp
  obtain ⟨j, hj, rfl⟩ := List.mem_iff_getElem.mp hp
  exact (h.member j hj).usable (h.at_path j _ (List.getElem?_eq_getElem hj))

/-- The devices opened from the paths, one by one. -/
theorem _root_.MdSpec.MembersAt.opened (h : MembersAt fs paths L n c size file sb place) {F : Prop}
    {i : Nat} {rs : List (Except (Bytes × ErrKind) (MdDevice NativeDev))} (ho : OpenedAs F fs i paths rs)
    (hne : (partitionResult rs).2 = []) :
    (partitionResult rs).1.length = paths.length ∧
      ∀ j (hj : j < (partitionResult rs).1.length),
        NativeDev.IsDisk (partitionResult rs).1[j].device (asDisk (file j)) ∧
        ((partitionResult rs).1[j].superblock = .superblock (found10 (sb j)) ∨
          (F ∧ ((partitionResult rs).1[j].superblock = .missing ∨
            Genuine (file j).content (partitionResult rs).1[j].superblock))) := by
  obtain ⟨h1, h2⟩ := ho.opened hne
  refine ⟨h1, fun j hj => ?_⟩
  have hj' : j < paths.length := by omega
  obtain ⟨m, g1, ⟨f, hf, -, hd, hc⟩, -⟩ := h2 j _ (List.getElem?_eq_getElem hj')
  rw [h.at_path j _ (List.getElem?_eq_getElem hj')] at hf
  cases hf
  rw [List.getElem?_eq_getElem hj] at g1
  cases g1
  rw [wholeBlocks_member (h.member j hj')] at hc
  refine ⟨hd, hc.imp (fun hc => C36_expected_unique hc (h.member j hj').expected) ?_⟩
  exact fun hc => ⟨hc.1, hc.2.2⟩

section
variable [Build]

/-- C89 (partial: for superblocks of version 1.0 and data areas that begin at the first sector; for others it is
false by `C17_data_offset_ignored` and `C20_v0_unreadable`).  The members of a RAID6 array are at the paths, in
any order, perhaps with spares, and nothing fails.  The program opens all of them, and whatever is done with the
ext4 filesystem on the array made of them, the outcomes are those on an in-memory device that holds the content
of the array. -/
theorem C89_disks_to_files_partial (h : ArrayAt fs paths L n c size content file sb place)
    {alg : Raid6Algorithm} (hL : Raid6Algorithm.fromLayout L = some alg) (s : System)
    (hos : NativeDev.NoFailures s.os) (hi : s.nextId + paths.length < U64) :
    ∃ s' devices, openPaths fs paths s = (s', .ok (devices.map .ok)) ∧
      ∀ ord : IterOrder, ord.Valid → ∀ ops : List (Nat × SessionCall), (∀ x ∈ ops, x.2.wellTyped) →
        sessionRun (Reader.streamDev (MdArray.dev NativeDev.streamDev.toBlockDev))
            (s'.os, [.device (Reader.new (MdArray.open ord devices))]) ops =
          sessionRun InMemory.streamDev ((), [.device (InMemory.new content 512)]) ops := by
  obtain ⟨s', rs, hrun, hG, ho⟩ := openPaths_spec False NativeDev.NoFailures
    (fun _ _ h hl => ⟨fun c hc => h.1 c (hl.1 hc), fun c hc => h.2 c (hl.2 hc)⟩)
    (fun _ c h hc => h.1 c hc) (fun _ c h hc => h.2 c hc) fs paths s hos hi h.sane
  have hne : (partitionResult rs).2 = [] := by
    rw [ho.errors_eq, List.filterMap_eq_nil_iff]
    intro path hp
    rw [complaint, h.usable path hp]
    rfl
  obtain ⟨h1, h2⟩ := h.opened ho hne
  refine ⟨s', (partitionResult rs).1, by rw [← partitionResult_ok rs hne]; exact hrun,
    fun ord hord ops hops => ?_⟩
  exact C77_ext4_on_array NativeDev.streamDevSpec_reliable.toDev hord hL
    (h.readable hL h1 fun j hj => ⟨(h2 j hj).2.resolve_right fun h => h.1, (h2 j hj).1⟩)
    h.data _ hG ops hops

omit [Build] in
/-- The array of devices one of which has no superblock fails at every call, so it is, if failures are allowed,
a device with any content. -/
theorem disabled_devSpec {W D : Type} (dev : BlockDev W D) (G : W → Prop) {ord : IterOrder} (hord : ord.Valid)
    {devices : List (MdDevice D)} (h : ∃ d ∈ devices, d.superblock = .tooSmall ∨ d.superblock = .missing)
    {k : Disk} (hk : k.Wf) (hbs : k.bs = 512) :
    DevSpec True (MdArray.dev dev) G (fun a k' => a = MdArray.open ord devices ∧ k' = k) where
  wf := by rintro a k' ⟨-, rfl⟩; exact hk
  blockSize := by
    rintro w a k' hG ⟨-, rfl⟩
    exact ⟨hG, .inl (by rw [hbs]; rfl)⟩
  blockCount := by
    rintro w a k' hG ⟨rfl, rfl⟩
    obtain ⟨-, -, h1, -⟩ := C26_missing_superblock_disables hord dev devices h w
    rw [h1]
    exact ⟨hG, .inr ⟨trivial, _, rfl⟩⟩
  readBlock := by
    rintro w a k' hG ⟨rfl, rfl⟩ b buf - hl
    obtain ⟨-, -, -, h2⟩ := C26_missing_superblock_disables hord dev devices h w
    rw [h2 b buf (by omega)]
    exact ⟨hG, ⟨rfl, rfl⟩, .inr ⟨trivial, _, rfl⟩⟩
  tryClone := by
    rintro w a k' hG ⟨rfl, rfl⟩
    exact ⟨hG, .inl ⟨_, rfl, rfl, rfl⟩⟩

/-- C89, if reads and ioctls may fail at any time, while the devices are opened or later (and there are no
version-0 superblocks beside those of version 1.0, to which the program would fall back).  Either some path is
reported with an error; or the outcomes are those on an in-memory device that holds the content of the array, up
to the first error that comes from a failure. -/
theorem C89_failing_partial (h : ArrayAt fs paths L n c size content file sb place)
    (h0 : ∀ j, j < paths.length → ∀ off e, Place090 (file j).content.length off →
      ¬ V0At (file j).content off e)
    {alg : Raid6Algorithm} (hL : Raid6Algorithm.fromLayout L = some alg) (s : System)
    (hi : s.nextId + paths.length < U64) :
    ∃ s' rs, openPaths fs paths s = (s', .ok rs) ∧
      ((∃ path ∈ paths, ∃ e, .error (path, e) ∈ rs) ∨
       ∃ devices : List (MdDevice NativeDev), rs = devices.map .ok ∧
        ∀ ord : IterOrder, ord.Valid → ∀ ops : List (Nat × SessionCall), (∀ x ∈ ops, x.2.wellTyped) →
          let seen := sessionRun (Reader.streamDev (MdArray.dev NativeDev.streamDev.toBlockDev))
            (s'.os, [.device (Reader.new (MdArray.open ord devices))]) ops
          let right := sessionRun InMemory.streamDev ((), [.device (InMemory.new content 512)]) ops
          seen = right ∨ ∃ k e, seen.take k = right.take k ∧ seen[k]? = some (.error e)) := by
  obtain ⟨s', rs, hrun, -, ho⟩ := openPaths_spec True (fun _ => True) (fun _ _ _ _ => trivial)
    (fun _ _ _ _ => trivial) (fun _ _ _ _ => trivial) fs paths s trivial hi h.sane
  refine ⟨s', rs, hrun, ?_⟩
  by_cases hne : (partitionResult rs).2 = []
  · right
    obtain ⟨h1, h2⟩ := h.opened ho hne
    refine ⟨(partitionResult rs).1, partitionResult_ok rs hne, fun ord hord ops hops => ?_⟩
    have hd := NativeDev.streamDevSpec_honest.toDev
    by_cases hm : ∃ d ∈ (partitionResult rs).1, d.superblock = .tooSmall ∨ d.superblock = .missing
    · have ha := disabled_devSpec NativeDev.streamDev.toBlockDev (fun _ => True) hord hm
        (k := ⟨512, size * (n - 2), content⟩)
        ⟨(by decide : 0 < 512), (by decide : 512 < U32), h.data.length, h.data.bytes_lt⟩ rfl
      rcases C76_failing_device (Reader.seekableVolume ha ⟨512, size * (n - 2), content⟩)
        InMemory.seekableVolume content s'.os () _ (InMemory.new content 512) trivial trivial
        ⟨rfl, 0, Reader.at_new (ha.wf ⟨rfl, rfl⟩) ⟨rfl, rfl⟩⟩ rfl (.inl rfl) ops hops with h | ⟨-, h⟩
      · exact .inl h
      · exact .inr h
    · refine C77_failing_members hd hord hL (h.readable hL h1 fun j hj => ⟨?_, (h2 j hj).1⟩) h.data _
        trivial ops hops
      rcases (h2 j hj).2 with h3 | ⟨-, h3 | h3⟩
      · exact h3
      · exact absurd ⟨_, List.getElem_mem hj, .inr h3⟩ hm
      · have hj' : j < paths.length := by omega
        exact (h.member j hj').genuine (h0 j hj') h3
  · left
    obtain ⟨⟨path, e⟩, he⟩ := List.exists_mem_of_ne_nil _ hne
    refine ⟨path, ho.errors_sublist.subset (List.mem_map_of_mem (f := (·.1)) he), e, ?_⟩
    exact mem_of_partitionResult he

end

/-- Disks whose superblocks describe an array and are in step are diagnosed without complaint, whatever their data. -/
theorem clean_membersAt (h : MembersAt fs paths L n c size file sb place) (hs : InStep paths sb)
    {ord ord' : IterOrder} (hord : ord.Valid) (hord' : ord'.Valid) (s : System)
    (hos : NativeDev.NoFailures s.os) (hi : s.nextId + paths.length < U64) :
    ∃ s' d, mainProgram ord ord' fs paths s = (s', .ok (.diagnosis d)) ∧ Clean d := by
  refine (C87_clean_iff hord hord' fs paths s hos hi h.sane).mpr
    ⟨h.usable, fun j => found10 (sb j), ⟨fun j path f hj hf => ?_, fun i j hi hj => ?_,
      fun i j hi hj he => ?_⟩⟩
  · rw [h.at_path j path hj] at hf
    cases hf
    have := h.member j (List.getElem?_eq_some_iff.mp hj).1
    rw [wholeBlocks_member this]
    exact this.expected
  · obtain ⟨a1, a2, a3, a4, a5, a6, a7, a8, a9, a10⟩ := found10_fields (h.member i hi).wf
    obtain ⟨b1, b2, b3, b4, b5, b6, b7, b8, b9, b10⟩ := found10_fields (h.member j hj).wf
    obtain ⟨g1, g2, g3, g4, g5, g6, -⟩ := h.geometry i hi
    obtain ⟨k1, k2, k3, k4, k5, k6, -⟩ := h.geometry j hj
    constructor
    · rw [a1, b1, hs.uuid i j hi hj]
    · intro a b ha hb
      rw [a2] at ha
      rw [b2] at hb
      cases ha
      cases hb
      exact hs.name i j hi hj
    · rw [a3, b3, g1, g2, k1, k2]
    · rw [a4, b4, g4, k4]
    · rw [a5, b5, g5, k5]
    · rw [a6, b6, g3, k3]
    · rw [a7 g6, b7 k6]
    · rw [a9, b9, hs.events i j hi hj]
    · rw [a10, b10, h.roles i j hi hj]
  · obtain ⟨-, -, -, -, -, -, -, a8, -⟩ := found10_fields (h.member i hi).wf
    obtain ⟨-, -, -, -, -, -, -, b8, -⟩ := found10_fields (h.member j hj).wf
    rw [a8, b8] at he
    exact hs.distinct i j hi hj he

/-- C89: if, moreover, the superblocks agree in the rest, the program prints a diagnosis without complaint. -/
theorem C89_clean_partial (h : ArrayAt fs paths L n c size content file sb place) (hs : InStep paths sb)
    {ord ord' : IterOrder} (hord : ord.Valid) (hord' : ord'.Valid) (s : System)
    (hos : NativeDev.NoFailures s.os) (hi : s.nextId + paths.length < U64) :
    ∃ s' d, mainProgram ord ord' fs paths s = (s', .ok (.diagnosis d)) ∧ Clean d :=
  clean_membersAt h.toMembersAt hs hord hord' s hos hi

end

end MdRecover
