import Mathlib.Data.Finset.Card
import Verif.Props.ArrayRead
import Verif.Props.Main
import Verif.Spec.Clean

/-! C87 and C88: a diagnosis without complaint. -/

namespace MdRecover
open MdSpec

/-! ## C87 -/

theorem has_superblock {D K : Type} [DecidableEq K] {attr : Superblock → Option K} {d : MdDevice D}
    {s : Superblock} (h : d.superblock = .superblock s) (k : K) : has attr k d = true ↔ attr s = some k := by
  unfold has
  rw [h]
  simp

/-- An attribute in which the devices should agree is not reported iff it is the same in all superblocks. -/
theorem disagreement_absent {D K : Type} [DecidableEq K] {attr : Superblock → Option K}
    {devices : List (MdDevice D)} {report : Option (HMap K (List MdDeviceId))} {found : Nat → Superblock}
    (h : Disagreement attr devices report)
    (hf : ∀ (j : Nat) (hj : j < devices.length), devices[j].superblock = .superblock (found j)) :
    report = none ↔ ∀ i j, i < devices.length → j < devices.length →
      ∀ a b, attr (found i) = some a → attr (found j) = some b → a = b := by
  rw [h.absent]
  constructor
  · intro H i j hi hj a b ha hb
    exact H _ (List.getElem_mem hi) _ (List.getElem_mem hj) a b ((has_superblock (hf i hi) a).mpr ha)
      ((has_superblock (hf j hj) b).mpr hb)
  · intro H d hd e he a b ha hb
    obtain ⟨i, hi, rfl⟩ := List.mem_iff_getElem.mp hd
    obtain ⟨j, hj, rfl⟩ := List.mem_iff_getElem.mp he
    exact H i j hi hj a b ((has_superblock (hf i hi) a).mp ha) ((has_superblock (hf j hj) b).mp hb)

/-- The same for an attribute that every superblock has. -/
theorem disagreement_absent_some {D K : Type} [DecidableEq K] {attr : Superblock → K}
    {devices : List (MdDevice D)} {report : Option (HMap K (List MdDeviceId))} {found : Nat → Superblock}
    (h : Disagreement (fun s => some (attr s)) devices report)
    (hf : ∀ (j : Nat) (hj : j < devices.length), devices[j].superblock = .superblock (found j)) :
    report = none ↔ ∀ i j, i < devices.length → j < devices.length → attr (found i) = attr (found j) := by
  rw [disagreement_absent h hf]
  constructor
  · exact fun H i j hi hj => H i j hi hj _ _ rfl rfl
  · intro H i j hi hj a b ha hb
    cases ha
    cases hb
    exact H i j hi hj

/-- A filtered list has at most one element iff no two places of the list satisfy the predicate. -/
theorem length_filter_le_one {A : Type} (p : A → Bool) : ∀ l : List A,
    (l.filter p).length ≤ 1 ↔
      ∀ i j (hi : i < l.length) (hj : j < l.length), p l[i] = true → p l[j] = true → i = j
  | [] => by simp
  | a :: l => by
    have ih := length_filter_le_one p l
    by_cases ha : p a = true
    · rw [List.filter_cons_of_pos ha, List.length_cons]
      constructor
      · intro h
        have hnil : l.filter p = [] := List.eq_nil_of_length_eq_zero (by omega)
        have hno : ∀ i (hi : i < l.length), ¬ p l[i] = true := by
          intro i hi
          exact List.filter_eq_nil_iff.mp hnil _ (List.getElem_mem hi)
        intro i j hi hj h1 h2
        cases i with
        | zero =>
          cases j with
          | zero => rfl
          | succ j => exact absurd h2 (hno j (by simpa using hj))
        | succ i => exact absurd h1 (hno i (by simpa using hi))
      · intro h
        have : l.filter p = [] := by
          rw [List.filter_eq_nil_iff]
          intro x hx hpx
          obtain ⟨j, hj, rfl⟩ := List.mem_iff_getElem.mp hx
          have := h 0 (j + 1) (by simp) (by simpa using hj) ha hpx
          omega
        rw [this]
        simp
    · rw [List.filter_cons_of_neg ha, ih]
      constructor
      · intro h i j hi hj h1 h2
        cases i with
        | zero => exact absurd h1 ha
        | succ i =>
          cases j with
          | zero => exact absurd h2 ha
          | succ j => rw [h i j (by simpa using hi) (by simpa using hj) h1 h2]
      · intro h i j hi hj h1 h2
        have := h (i + 1) (j + 1) (by simpa using hi) (by simpa using hj) h1 h2
        omega

/-- Devices that all have superblocks: the diagnosis is clean iff these describe the same array in the same
state and are of different devices. -/
theorem clean_iff {D : Type} {devices : List (MdDevice D)} {d : Diagnosis} (hr : Reports devices d)
    {found : Nat → Superblock}
    (hf : ∀ (j : Nat) (hj : j < devices.length), devices[j].superblock = .superblock (found j)) :
    Clean d ↔ (∀ i j, i < devices.length → j < devices.length → SameArray (found i) (found j)) ∧
      ∀ i j, i < devices.length → j < devices.length →
        (found i).deviceRoleIndex = (found j).deviceRoleIndex → i = j := by
  have hdup : d.deviceRoleIndex = none ↔ ∀ i j, i < devices.length → j < devices.length →
      (found i).deviceRoleIndex = (found j).deviceRoleIndex → i = j := by
    rw [hr.deviceRoleIndex.absent]
    constructor
    · intro h i j hi hj he
      refine (length_filter_le_one _ _).mp (h (found i).deviceRoleIndex) i j hi hj ?_ ?_
      · exact (has_superblock (hf i hi) _).mpr rfl
      · exact (has_superblock (hf j hj) _).mpr (by rw [he])
    · intro h k
      refine (length_filter_le_one _ _).mpr fun i j hi hj h1 h2 => h i j hi hj ?_
      have h1 := (has_superblock (hf i hi) _).mp h1
      have h2 := (has_superblock (hf j hj) _).mp h2
      rw [← h2] at h1
      exact Option.some.inj h1
  have e1 := disagreement_absent_some hr.arrayUuid hf
  have e2 := disagreement_absent hr.arrayName hf
  have e3 := disagreement_absent_some hr.algorithm hf
  have e4 := disagreement_absent_some hr.size hf
  have e5 := disagreement_absent_some hr.chunkSize hf
  have e6 := disagreement_absent_some hr.deviceCount hf
  have e7 := disagreement_absent_some hr.reshape hf
  have e8 := disagreement_absent_some hr.eventCount hf
  have e9 := disagreement_absent_some hr.deviceRoles hf
  have hsb : ∀ x ∈ devices, ∃ s, x.superblock = .superblock s := by
    intro x hx
    obtain ⟨j, hj, rfl⟩ := List.mem_iff_getElem.mp hx
    exact ⟨_, hf j hj⟩
  constructor
  · intro h
    refine ⟨fun i j hi hj => ?_, hdup.mp h.deviceRoleIndex⟩
    exact ⟨e1.mp h.arrayUuid i j hi hj, e2.mp h.arrayName i j hi hj, e3.mp h.algorithm i j hi hj,
      e4.mp h.size i j hi hj, e5.mp h.chunkSize i j hi hj, e6.mp h.deviceCount i j hi hj,
      e7.mp h.reshape i j hi hj, e8.mp h.eventCount i j hi hj, e9.mp h.deviceRoles i j hi hj⟩
  · rintro ⟨h1, h2⟩
    refine ⟨?_, ?_, ?_, ?_, ?_, ?_, ?_, ?_, ?_, ?_, ?_, hdup.mpr h2⟩
    · rw [hr.deviceTooSmall.absent]
      intro x hx h
      obtain ⟨s, hs⟩ := hsb x hx
      rw [hs] at h
      cases h
    · rw [hr.missingSuperblock.absent]
      intro x hx h
      obtain ⟨s, hs⟩ := hsb x hx
      rw [hs] at h
      cases h
    · exact e1.mpr fun i j hi hj => (h1 i j hi hj).arrayUuid
    · exact e2.mpr fun i j hi hj => (h1 i j hi hj).arrayName
    · exact e3.mpr fun i j hi hj => (h1 i j hi hj).algorithm
    · exact e4.mpr fun i j hi hj => (h1 i j hi hj).size
    · exact e5.mpr fun i j hi hj => (h1 i j hi hj).chunkSize
    · exact e6.mpr fun i j hi hj => (h1 i j hi hj).deviceCount
    · exact e7.mpr fun i j hi hj => (h1 i j hi hj).reshape
    · exact e8.mpr fun i j hi hj => (h1 i j hi hj).eventCount
    · exact e9.mpr fun i j hi hj => (h1 i j hi hj).deviceRoles

/-- Devices that were opened from paths: the diagnosis is clean iff nothing is wrong at the paths. -/
theorem clean_members {fs : Bytes → Except Nat OsFile} {first : Nat} {paths : List Bytes}
    {devices : List (MdDevice NativeDev)} {d : Diagnosis}
    (hm : Members (fun f sb => Expected (wholeBlocks f) sb) fs first paths devices)
    (hr : Reports devices d) : Clean d ↔ ∃ found, NothingWrong fs paths found := by
  -- the device at each place
  have hget : ∀ j (hj : j < devices.length), ∃ path f, paths[j]? = some path ∧ fs path = .ok f ∧
      Expected (wholeBlocks f) devices[j].superblock := by
    intro j hj
    obtain ⟨m, f, g1, g2, -, -, g5⟩ := hm.2 j _ (List.getElem?_eq_getElem (hm.1 ▸ hj))
    rw [List.getElem?_eq_getElem hj] at g1
    cases g1
    exact ⟨_, f, List.getElem?_eq_getElem (hm.1 ▸ hj), g2, g5⟩
  constructor
  · intro h
    have hex : ∀ j, ∃ s, ∀ hj : j < devices.length, devices[j].superblock = .superblock s := by
      intro j
      by_cases hj : j < devices.length
      · cases hs : devices[j].superblock with
        | superblock s => exact ⟨s, fun _ => hs⟩
        | tooSmall => exact absurd hs (hr.deviceTooSmall.absent.mp h.deviceTooSmall _ (List.getElem_mem hj))
        | missing =>
          exact absurd hs (hr.missingSuperblock.absent.mp h.missingSuperblock _ (List.getElem_mem hj))
      · exact ⟨(SuperblockV1.mk [] 0).toSuperblock, fun h => absurd h hj⟩
    have hf : ∀ (j : Nat) (hj : j < devices.length),
        devices[j].superblock = .superblock (hex j).choose := fun j hj => (hex j).choose_spec hj
    obtain ⟨h1, h2⟩ := (clean_iff hr (found := fun j => (hex j).choose) hf).mp h
    refine ⟨fun j => (hex j).choose, ⟨fun j path f hj hfs => ?_, hm.1 ▸ h1, hm.1 ▸ h2⟩⟩
    have hlt : j < devices.length := by
      rw [hm.1]; exact (List.getElem?_eq_some_iff.mp hj).1
    obtain ⟨path', f', g1, g2, g3⟩ := hget j hlt
    rw [hj] at g1
    cases g1
    rw [hfs] at g2
    cases g2
    rw [← hf j hlt]
    exact g3
  · rintro ⟨found, h⟩
    have hf : ∀ (j : Nat) (hj : j < devices.length), devices[j].superblock = .superblock (found j) := by
      intro j hj
      obtain ⟨path, f, g1, g2, g3⟩ := hget j hj
      exact C36_expected_unique g3 (h.has j path f g1 g2)
    exact (clean_iff hr hf).mpr ⟨hm.1 ▸ h.same, hm.1 ▸ h.distinct⟩

/-- C87, if no read and no ioctl fails: a diagnosis without complaint is printed iff all paths can be used,
each device has a superblock, the superblocks agree, and no two are of the same device of the array. -/
theorem C87_clean_iff {ord ord' : IterOrder} (hord : ord.Valid) (hord' : ord'.Valid)
    (fs : Bytes → Except Nat OsFile) (paths : List Bytes) (s : System)
    (hos : NativeDev.NoFailures s.os) (hi : s.nextId + paths.length < U64)
    (hsane : ∀ path ∈ paths, ∀ f, fs path = .ok f → Sane f) :
    (∃ s' d, mainProgram ord ord' fs paths s = (s', .ok (.diagnosis d)) ∧ Clean d) ↔
      (∀ path ∈ paths, unusable fs path = none) ∧ ∃ found, NothingWrong fs paths found := by
  have hnil : paths.filterMap (complaint fs) = [] ↔ ∀ path ∈ paths, unusable fs path = none := by
    rw [List.filterMap_eq_nil_iff]
    refine forall₂_congr fun path _ => ?_
    unfold complaint
    simp
  obtain ⟨h1, h2⟩ := C78_outcome hord hord' fs paths s hos hi hsane
  by_cases hn : paths.filterMap (complaint fs) = []
  · obtain ⟨s1, d, devices, h3, h4, h5⟩ := h2 hn
    constructor
    · rintro ⟨s', d', h, hc⟩
      rw [h3] at h
      cases h
      exact ⟨hnil.mp hn, (clean_members h4 h5).mp hc⟩
    · rintro ⟨-, h⟩
      exact ⟨s1, d, h3, (clean_members h4 h5).mpr h⟩
  · obtain ⟨s1, h3⟩ := h1 hn
    constructor
    · rintro ⟨s', d', h, -⟩
      rw [h3] at h
      cases h
    · rintro ⟨h, -⟩
      exact absurd (hnil.mpr h) hn

/-- The expected superblock is on the device. -/
theorem genuine_of_expected {c : Bytes} {s : Superblock} (h : Expected c (.superblock s)) :
    Genuine c (.superblock s) := by
  generalize hx : DeviceSuperblock.superblock s = x at h
  cases h with
  | tooSmall => cases hx
  | v12 _ h => exact .inl ⟨h, rfl⟩
  | v11 _ _ h => exact .inr (.inl ⟨h, rfl⟩)
  | v10 _ _ _ hp h => exact .inr (.inr (.inl ⟨_, hp, h, rfl⟩))
  | v090 _ _ _ _ _ hp h => exact .inr (.inr (.inr ⟨_, _, hp, h, rfl⟩))
  | missing => cases hx

/-- C87, if reads and ioctls may fail at any time: whenever a diagnosis without complaint is printed, all paths
can be used, on each device there is a superblock, and these agree and are of different devices of the array. -/
theorem C87_clean_failing {ord ord' : IterOrder} (hord : ord.Valid) (hord' : ord'.Valid)
    (fs : Bytes → Except Nat OsFile) (paths : List Bytes) (s s' : System) (d : Diagnosis)
    (hi : s.nextId + paths.length < U64) (hsane : ∀ path ∈ paths, ∀ f, fs path = .ok f → Sane f)
    (h : mainProgram ord ord' fs paths s = (s', .ok (.diagnosis d))) (hc : Clean d) :
    ∃ found : Nat → Superblock,
      (∀ j path, paths[j]? = some path →
        ∃ f, fs path = .ok f ∧ f.physical.isSome ∧ Genuine (wholeBlocks f) (.superblock (found j))) ∧
      (∀ i j, i < paths.length → j < paths.length → SameArray (found i) (found j)) ∧
      ∀ i j, i < paths.length → j < paths.length →
        (found i).deviceRoleIndex = (found j).deviceRoleIndex → i = j := by
  rcases C78_failing hord hord' fs paths s hi hsane with ⟨s1, l, h1, -⟩ | ⟨s1, d', devices, h1, hm, hr⟩
  · rw [h] at h1
    cases h1
  rw [h] at h1
  cases h1
  have hex : ∀ j, ∃ s, ∀ hj : j < devices.length, devices[j].superblock = .superblock s := by
    intro j
    by_cases hj : j < devices.length
    · cases hs : devices[j].superblock with
      | superblock s => exact ⟨s, fun _ => hs⟩
      | tooSmall => exact absurd hs (hr.deviceTooSmall.absent.mp hc.deviceTooSmall _ (List.getElem_mem hj))
      | missing =>
        exact absurd hs (hr.missingSuperblock.absent.mp hc.missingSuperblock _ (List.getElem_mem hj))
    · exact ⟨(SuperblockV1.mk [] 0).toSuperblock, fun h => absurd h hj⟩
  obtain ⟨found, hf⟩ : ∃ found : Nat → Superblock,
      ∀ (j : Nat) (hj : j < devices.length), devices[j].superblock = .superblock (found j) :=
    ⟨fun j => (hex j).choose, fun j hj => (hex j).choose_spec hj⟩
  obtain ⟨h1, h2⟩ := (clean_iff hr hf).mp hc
  refine ⟨found, fun j path hj => ?_, hm.1 ▸ h1, hm.1 ▸ h2⟩
  have hlt : j < devices.length := by
    rw [hm.1]; exact (List.getElem?_eq_some_iff.mp hj).1
  obtain ⟨m, f, g1, g2, g3, -, g5⟩ := hm.2 j path hj
  refine ⟨f, g2, g3, ?_⟩
  rw [List.getElem?_eq_getElem hlt] at g1
  cases g1
  simp only [FoundDespiteErrors, hf j hlt] at g5
  rcases g5 with g5 | ⟨-, g5 | g5⟩
  · exact genuine_of_expected g5
  · cases g5
  · exact g5

/-! ## C88 -/

theorem column_replicate (t : List Role) (k i : Nat) :
    column (List.replicate k t) i = match t[i]? with
      | some r => List.replicate k r
      | none => [] := by
  unfold column
  cases h : t[i]? with
  | some r => exact filterMap_replicate (fun t : List Role => t[i]?) t r h k
  | none =>
    rw [List.filterMap_eq_nil_iff]
    intro t' ht'
    rw [(List.mem_replicate.mp ht').2, h]

theorem mergedValue_replicate (r : Role) (k : Nat) :
    mergedValue (List.replicate (k + 1) r) = some r := by
  unfold mergedValue
  by_cases h1 : invalidRole r = true
  · rw [List.filter_replicate_of_pos h1, List.getLast?_replicate]
    rfl
  · rw [List.filter_replicate_of_neg h1]
    by_cases h2 : opinion r = true
    · rw [List.filter_replicate_of_pos h2]
      rfl
    · rw [List.filter_replicate_of_neg h2, List.getLast?_replicate]
      rfl

/-- If all devices have the same role table, a device claims what the table says of it. -/
theorem claims_of_same_table {D : Type} {devices : List (MdDevice D)} {t : List Role}
    (ht : ∀ x ∈ devices, ∃ s, x.superblock = .superblock s ∧ s.deviceRoles = t) {x : MdDevice D}
    (hx : x ∈ devices) {s : Superblock} (hs : x.superblock = .superblock s) (d : Nat) :
    Claims devices x d ↔ t[s.deviceRoleIndex]? = some ⟨d⟩ ∧ d ≤ 0xfeff := by
  have htab : Tables devices (List.replicate devices.length t) := by
    unfold Tables
    rw [List.map_replicate, List.eq_replicate_iff]
    refine ⟨by simp, fun b hb => ?_⟩
    obtain ⟨y, hy, rfl⟩ := List.mem_map.mp hb
    obtain ⟨s', hs', h⟩ := ht y hy
    rw [hs']
    exact congrArg some h
  have hpos : devices.length = devices.length - 1 + 1 := by
    have := List.length_pos_of_mem hx
    omega
  have hmv : mergedValue (column (List.replicate devices.length t) s.deviceRoleIndex) =
      t[s.deviceRoleIndex]? := by
    rw [column_replicate]
    cases t[s.deviceRoleIndex]? with
    | none => rfl
    | some r =>
      rw [hpos]
      exact mergedValue_replicate r _
  constructor
  · rintro ⟨tables, s', ht', -, hs', hv, hd⟩
    have := tables_unique ht' htab
    subst this
    rw [hs] at hs'
    cases hs'
    rw [← hmv]
    exact ⟨hv, hd⟩
  · rintro ⟨h, hd⟩
    refine ⟨_, s, htab, ?_, hs, hmv.trans h, hd⟩
    rintro i ⟨a, ha, b, hb, -, -, hne⟩
    have ha := List.takeWhile_subset _ ha
    have hb := List.takeWhile_subset _ hb
    rw [column_replicate] at ha hb
    cases hr : t[i]? with
    | none => rw [hr] at ha; cases ha
    | some r =>
      rw [hr] at ha hb
      exact hne ((List.mem_replicate.mp ha).2.trans (List.mem_replicate.mp hb).2.symm)

/-- C88 (partial: false as it stands, see `C88_missing_members_unreported`).  There are as many devices as the
superblocks say the array has, and the role table gives each of them a member number, and no number to two
devices.  If the diagnosis has no complaint, every member of the array is there and active. -/
theorem C88_all_present_partial {D : Type} {ord : IterOrder} (hord : ord.Valid)
    {devices : List (MdDevice D)} {d : Diagnosis} (hr : Reports devices d) (hc : Clean d)
    (hn : devices.length ≤ 0xff00)
    (hrole : ∀ x ∈ devices, ∃ s r, x.superblock = .superblock s ∧ s.raidDeviceCount = devices.length ∧
      s.deviceRoles[s.deviceRoleIndex]? = some ⟨r⟩ ∧ r < devices.length)
    (honce : ∀ x ∈ devices, ∀ s, x.superblock = .superblock s → ∀ i j r : Nat, r < devices.length →
      s.deviceRoles[i]? = some ⟨r⟩ → s.deviceRoles[j]? = some ⟨r⟩ → i = j) :
    ∀ m, m < devices.length → ∃ x ∈ devices, (MdArray.open ord devices).devices.get m = some x := by
  rcases Nat.eq_zero_or_pos devices.length with hz | hpos
  · intro m hm
    omega
  have hex : ∀ j, ∃ s r, ∀ hj : j < devices.length, devices[j].superblock = .superblock s ∧
      s.deviceRoles[s.deviceRoleIndex]? = some ⟨r⟩ ∧ r < devices.length := by
    intro j
    by_cases hj : j < devices.length
    · obtain ⟨s, r, h1, -, h2, h3⟩ := hrole _ (List.getElem_mem hj)
      exact ⟨s, r, fun _ => ⟨h1, h2, h3⟩⟩
    · exact ⟨(SuperblockV1.mk [] 0).toSuperblock, 0, fun h => absurd h hj⟩
  obtain ⟨found, number, hf⟩ : ∃ (found : Nat → Superblock) (number : Nat → Nat),
      ∀ (j : Nat) (hj : j < devices.length), devices[j].superblock = .superblock (found j) ∧
        (found j).deviceRoles[(found j).deviceRoleIndex]? = some ⟨number j⟩ ∧
        number j < devices.length :=
    ⟨fun j => (hex j).choose, fun j => (hex j).choose_spec.choose,
      fun j hj => (hex j).choose_spec.choose_spec hj⟩
  obtain ⟨hsame, hdist⟩ := (clean_iff hr fun j hj => (hf j hj).1).mp hc
  have htab : ∀ x ∈ devices, ∃ s, x.superblock = .superblock s ∧ s.deviceRoles = (found 0).deviceRoles := by
    intro x hx
    obtain ⟨j, hj, rfl⟩ := List.mem_iff_getElem.mp hx
    exact ⟨_, (hf j hj).1, (hsame j 0 hj hpos).deviceRoles⟩
  have hcl : ∀ j (hj : j < devices.length) m, m < devices.length →
      (Claims devices devices[j] m ↔ number j = m) := by
    intro j hj m hm
    rw [claims_of_same_table htab (List.getElem_mem hj) (hf j hj).1, ← (hsame j 0 hj hpos).deviceRoles,
      (hf j hj).2.1]
    simp
    omega
  have hinj : ∀ i j, i < devices.length → j < devices.length → number i = number j → i = j := by
    intro i j hi hj he
    refine hdist i j hi hj ?_
    have h1 := (hf i hi).2.1
    have h2 := (hf j hj).2.1
    rw [← he] at h2
    rw [(hsame i j hi hj).deviceRoles] at h1
    exact honce _ (List.getElem_mem hj) _ (hf j hj).1 _ _ _ (hf i hi).2.2 h1 h2
  -- as many numbers as devices: every number is taken
  have hsurj : ∀ m, m < devices.length → ∃ j, j < devices.length ∧ number j = m := by
    have hcard : Finset.image number (Finset.range devices.length) = Finset.range devices.length := by
      refine Finset.eq_of_subset_of_card_le (fun x hx => ?_) ?_
      · obtain ⟨j, hj, rfl⟩ := Finset.mem_image.mp hx
        exact Finset.mem_range.mpr (hf j (Finset.mem_range.mp hj)).2.2
      · rw [Finset.card_image_of_injOn]
        intro i hi j hj he
        exact hinj i j (by simpa using hi) (by simpa using hj) he
    intro m hm
    have : m ∈ Finset.image number (Finset.range devices.length) := by
      rw [hcard]; exact Finset.mem_range.mpr hm
    obtain ⟨j, hj, he⟩ := Finset.mem_image.mp this
    exact ⟨j, Finset.mem_range.mp hj, he⟩
  intro m hm
  obtain ⟨j, hj, he⟩ := hsurj m hm
  refine ⟨devices[j], List.getElem_mem hj, (C24_active_iff hord devices m devices[j]).mpr
    ⟨devices.take j, devices.drop (j + 1), by rw [List.getElem_cons_drop, List.take_append_drop],
      (hcl j hj m hm).mpr he, fun y hy hy' => ?_⟩⟩
  have key : ∃ (i : Nat) (hi : i < devices.length), i ≠ j ∧ devices[i] = y := by
    rcases List.mem_append.mp hy with hy | hy
    · obtain ⟨i, hi, e⟩ := List.mem_take_iff_getElem.mp hy
      exact ⟨i, by omega, by omega, e⟩
    · obtain ⟨i, hi, e⟩ := List.mem_drop_iff_getElem.mp hy
      exact ⟨i + (j + 1), by omega, by omega, by rw [← e]; congr 1; omega⟩
  obtain ⟨i, hi, hne, rfl⟩ := key
  exact hne (hinj i j hi hj (((hcl i hi m hm).mp hy').trans he.symm))

end MdRecover
