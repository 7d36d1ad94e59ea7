import Verif.Lemmas.Array
import Verif.Props.Superblock

/-! C20 and C22-C27: opening an array. -/

namespace MdRecover
open MdSpec

variable {W D : Type}

/-! ## C22 -/

/-- C22: the current format is `f` iff there is a device, all devices have a superblock and every
superblock describes `f`. -/
theorem C22_format_iff (ord : IterOrder) (devices : List (MdDevice D)) (f : MdFormat) :
    (MdArray.open ord devices).format = some f ↔
      AllHave devices fun s => s.algorithm = f.algorithm ∧ s.raidDeviceCount = f.deviceCount ∧
        s.sectorsPerDevice = f.sectorsPerDevice ∧ s.chunkSize = f.chunkSize := by
  show reduceFlatten MdArray.agree _ = some f ↔ _
  rw [MdArray.reduce_agree]
  unfold AllHave
  rw [ne_eq, List.map_eq_nil_iff]
  refine and_congr Iff.rfl ?_
  rw [List.forall_mem_map]
  refine forall_congr' fun d => imp_congr_right fun _ => ?_
  unfold MdFormat.fromSuperblock
  rw [Option.map_eq_some_iff]
  refine exists_congr fun s => ?_
  rw [asOption_eq_some]
  refine and_congr Iff.rfl ?_
  cases f
  simp

/-- C22: the reshape format is `f` iff there is a device, and every device has a superblock with a reshape
status whose target is `f` (same size; device count plus delta, if that is a 32-bit number). -/
theorem C22_new_format_iff (ord : IterOrder) (devices : List (MdDevice D)) (f : MdFormat) :
    (MdArray.open ord devices).newFormat = some f ↔
      AllHave devices fun s => ∃ st, s.reshapeStatus = some st ∧ st.newAlgorithm = f.algorithm ∧
        s.raidDeviceCount + st.deltaDevices < U32 ∧
        s.raidDeviceCount + st.deltaDevices = f.deviceCount ∧
        s.sectorsPerDevice = f.sectorsPerDevice ∧ st.newChunkSize = f.chunkSize := by
  show reduceFlatten MdArray.agree _ = some f ↔ _
  rw [MdArray.reduce_agree]
  unfold AllHave
  rw [ne_eq, List.map_eq_nil_iff]
  refine and_congr Iff.rfl ?_
  rw [List.forall_mem_map]
  refine forall_congr' fun d => imp_congr_right fun _ => ?_
  unfold MdFormat.fromSuperblockReshapeStatus
  rw [Option.bind_eq_some_iff]
  refine exists_congr fun s => ?_
  rw [asOption_eq_some]
  refine and_congr Iff.rfl ?_
  rw [Option.bind_eq_some_iff]
  refine exists_congr fun st => and_congr Iff.rfl ?_
  cases f
  unfold MdFormat.ofReshape checkedAdd32
  by_cases h : s.raidDeviceCount + st.deltaDevices < U32
  · rw [if_pos h]
    simp only [Option.map_some, Option.some.injEq, MdFormat.mk.injEq]
    constructor
    · rintro ⟨h1, h2, h3, h4⟩; exact ⟨h1, h, h2, h3, h4⟩
    · rintro ⟨h1, _, h2, h3, h4⟩; exact ⟨h1, h2, h3, h4⟩
  · rw [if_neg h]
    simp only [Option.map_none, reduceCtorEq, false_iff]
    rintro ⟨_, h', _⟩
    exact h h'

/-- C22: without agreement on either format the array has no block count and no block can be read: the
answer is InvalidData, and no device is touched. -/
theorem C22_no_format_no_data (dev : BlockDev W D) (ord : IterOrder) (devices : List (MdDevice D))
    (h1 : ∀ f : MdFormat, ¬ AllHave devices fun s => s.algorithm = f.algorithm ∧
      s.raidDeviceCount = f.deviceCount ∧ s.sectorsPerDevice = f.sectorsPerDevice ∧
      s.chunkSize = f.chunkSize)
    (h2 : ∀ f : MdFormat, ¬ AllHave devices fun s => ∃ st, s.reshapeStatus = some st ∧
      st.newAlgorithm = f.algorithm ∧ s.raidDeviceCount + st.deltaDevices < U32 ∧
      s.raidDeviceCount + st.deltaDevices = f.deviceCount ∧
      s.sectorsPerDevice = f.sectorsPerDevice ∧ st.newChunkSize = f.chunkSize) (w : W) :
    (MdArray.dev dev).blockCount (MdArray.open ord devices) w = (w, .err .invalidData) ∧
    ∀ b buf, 512 ≤ buf.length →
      (MdArray.dev dev).readBlock b buf (w, MdArray.open ord devices) =
        ((w, MdArray.open ord devices), .err .invalidData) := by
  have hf : (MdArray.open ord devices).format = none := by
    cases h : (MdArray.open ord devices).format with
    | none => rfl
    | some f => exact absurd ((C22_format_iff ord devices f).mp h) (h1 f)
  have hn : (MdArray.open ord devices).newFormat = none := by
    cases h : (MdArray.open ord devices).newFormat with
    | none => rfl
    | some f => exact absurd ((C22_new_format_iff ord devices f).mp h) (h2 f)
  generalize MdArray.open ord devices = a at *
  have hu : MdArray.formatInUse a = none := by unfold MdArray.formatInUse; rw [hf, hn]; rfl
  constructor
  · show (w, MdArray.blockCount a) = _
    unfold MdArray.blockCount; rw [hu]; rfl
  · intro b buf hb
    show MdArray.readBlock dev b buf (w, a) = _
    unfold MdArray.readBlock
    rw [if_neg (by omega)]
    simp only [hu]

/-! ## C23 -/

/-- C23: the active devices together with the inactive ones are the devices given, as a multiset; each device
number has one active device. -/
theorem C23_every_device_once {ord : IterOrder} (hord : ord.Valid) (devices : List (MdDevice D)) :
    ((MdArray.open ord devices).devices.map (·.2) ++ (MdArray.open ord devices).inactive).Perm
      devices ∧
    ((MdArray.open ord devices).devices.map (·.1)).Nodup :=
  ⟨MdArray.open_accounts hord devices, (MdArray.open_devices hord devices).2⟩

/-! ## C24 -/

/-- C24: `x` is the active device of number `n` iff it is the only one of the devices that claims `n`. -/
theorem C24_active_iff {ord : IterOrder} (hord : ord.Valid) (devices : List (MdDevice D)) (n : Nat)
    (x : MdDevice D) :
    HMap.get (MdArray.open ord devices).devices n = some x ↔
      ∃ l₁ l₂, devices = l₁ ++ x :: l₂ ∧ Claims devices x n ∧
        ∀ y ∈ l₁ ++ l₂, ¬ Claims devices y n := by
  rw [MdArray.open_get hord, MdArray.filter_eq_singleton]
  simp only [decide_eq_true_eq, MdArray.deviceNumber_eq]

/-! ## C26 -/

/-- C26: a device that is too small or has no superblock leaves no device active and no usable format:
block_count and read_block answer InvalidData without touching any device. -/
theorem C26_missing_superblock_disables {ord : IterOrder} (hord : ord.Valid) (dev : BlockDev W D)
    (devices : List (MdDevice D))
    (h : ∃ d ∈ devices, d.superblock = .tooSmall ∨ d.superblock = .missing) (w : W) :
    (MdArray.open ord devices).devices = [] ∧
    (MdArray.open ord devices).inactive.Perm devices ∧
    (MdArray.dev dev).blockCount (MdArray.open ord devices) w = (w, .err .invalidData) ∧
    ∀ b buf, 512 ≤ buf.length →
      (MdArray.dev dev).readBlock b buf (w, MdArray.open ord devices) =
        ((w, MdArray.open ord devices), .err .invalidData) := by
  obtain ⟨d, hd, hs⟩ := h
  have hno : ∀ p : Superblock → Prop, ¬ AllHave devices p := by
    rintro p ⟨_, hall⟩
    obtain ⟨s, hs', _⟩ := hall d hd
    rcases hs with hs | hs <;> rw [hs] at hs' <;> cases hs'
  have hcl : ∀ x n, ¬ Claims devices x n := by
    rintro x n ⟨tables, s, ht, _⟩
    have : d.superblock.asOption.map (·.deviceRoles) ∈ tables.map some := by
      rw [← ht]; exact List.mem_map.mpr ⟨d, hd, rfl⟩
    obtain ⟨t, _, ht'⟩ := List.mem_map.mp this
    rcases hs with hs | hs <;> rw [hs] at ht' <;> cases ht'
  have hemp : (MdArray.open ord devices).devices = [] := by
    apply List.eq_nil_iff_forall_not_mem.mpr
    rintro ⟨n, x⟩ hx
    rw [← HMap.get_eq_some (MdArray.open_devices hord devices).2, C24_active_iff hord] at hx
    obtain ⟨_, _, _, hc, _⟩ := hx
    exact hcl x n hc
  have hp := MdArray.open_accounts hord devices
  rw [hemp] at hp
  exact ⟨hemp, hp, C22_no_format_no_data dev ord devices (fun f => hno _) (fun f => hno _) w⟩

/-! ## C27 -/

/-- C27: when a merged role table exists and what it is: there is a device, all devices have a superblock, no
index has a conflict; entry `i` is the merged value of column `i`. -/
theorem C27_merged_table (devices : List (MdDevice D)) (t : List Role) :
    MdArray.mergedRoles devices = some t ↔ devices ≠ [] ∧ ∃ tables, Tables devices tables ∧
      (∀ i, ¬ Conflict (column tables i)) ∧ ∀ i : Nat, t[i]? = mergedValue (column tables i) :=
  MdArray.mergedRoles_eq devices t

/-- C27: the merged table exists iff no index has a conflict. -/
theorem C27_exists_iff {devices : List (MdDevice D)} {tables : List (List Role)}
    (ht : Tables devices tables) (h0 : devices ≠ []) :
    (MdArray.mergedRoles devices).isSome ↔ ∀ i, ¬ Conflict (column tables i) := by
  rw [Option.isSome_iff_exists]
  constructor
  · rintro ⟨t, h⟩
    obtain ⟨_, tables', h1, h2, _⟩ := (C27_merged_table devices t).mp h
    rw [tables_unique ht h1]; exact h2
  · intro h
    obtain ⟨t, hent⟩ := MdArray.exists_table tables
    exact ⟨t, (C27_merged_table devices t).mpr ⟨h0, tables, ht, h, hent⟩⟩

/-- C27: the merged table is as long as the longest table. -/
theorem C27_length {devices : List (MdDevice D)} {tables : List (List Role)} {t : List Role}
    (ht : Tables devices tables) (hm : MdArray.mergedRoles devices = some t) (N : Nat) :
    t.length ≤ N ↔ ∀ u ∈ tables, u.length ≤ N := by
  obtain ⟨_, tables', h1, _, h3⟩ := (C27_merged_table devices t).mp hm
  rw [tables_unique ht h1, ← MdArray.column_eq_nil, ← MdArray.mergedValue_eq_none, ← h3,
    List.getElem?_eq_none_iff]

/-- C27: no conflict iff, before the first invalid value, all opinions are the same. -/
theorem C27_conflict_free (c : List Role) : ¬ Conflict c ↔
    ∀ a b, a ∈ c.takeWhile (fun r => !invalidRole r) → b ∈ c.takeWhile (fun r => !invalidRole r) →
      opinion a → opinion b → a = b := by
  unfold Conflict
  constructor
  · intro h a b ha hb hoa hob
    by_contra hab
    exact h ⟨a, ha, b, hb, hoa, hob, hab⟩
  · rintro h ⟨a, ha, b, hb, hoa, hob, hab⟩
    exact hab (h a b ha hb hoa hob)

/-- C27: if no table has an invalid value at `i`, and all opinions about `i` are `o`, then the merged table has
`o` there. -/
theorem C27_opinion {devices : List (MdDevice D)} {tables : List (List Role)} {t : List Role}
    (ht : Tables devices tables) (hm : MdArray.mergedRoles devices = some t) {i : Nat} {o : Role}
    (hv : ∀ u ∈ tables, ∀ r, u[i]? = some r → invalidRole r = false)
    (ho : ∃ u ∈ tables, u[i]? = some o) (hoo : opinion o)
    (hall : ∀ u ∈ tables, ∀ r, u[i]? = some r → opinion r → r = o) :
    t[i]? = some o := by
  obtain ⟨_, tables', h1, _, h3⟩ := (C27_merged_table devices t).mp hm
  rw [h3, ← tables_unique ht h1]
  have hmem : ∀ r, r ∈ column tables i ↔ ∃ u ∈ tables, u[i]? = some r := by
    intro r; unfold column; rw [List.mem_filterMap]
  unfold mergedValue
  have hf : (column tables i).filter invalidRole = [] := by
    rw [List.filter_eq_nil_iff]
    intro r hr
    obtain ⟨u, hu, hr⟩ := (hmem r).mp hr
    rw [hv u hu r hr]; simp
  rw [hf]
  cases hh : ((column tables i).filter opinion).head? with
  | none =>
    rw [List.head?_eq_none_iff, List.filter_eq_nil_iff] at hh
    exact absurd hoo (hh o ((hmem o).mpr ho))
  | some r =>
    have hr := List.mem_filter.mp (List.mem_of_head? hh)
    obtain ⟨u, hu, hur⟩ := (hmem r).mp hr.1
    rw [hall u hu r hur hr.2]; rfl

/-! ## C25 -/

/-- C25, formats: the formats do not depend on the order of the devices nor on hash iteration order. -/
theorem C25_formats_any_order (ord ord' : IterOrder) {devices devices' : List (MdDevice D)}
    (hp : devices.Perm devices') :
    (MdArray.open ord devices).format = (MdArray.open ord' devices').format ∧
    (MdArray.open ord devices).newFormat = (MdArray.open ord' devices').newFormat := by
  have hall : ∀ p : Superblock → Prop, AllHave devices p ↔ AllHave devices' p := by
    intro p
    unfold AllHave
    refine and_congr (not_congr ?_) ?_
    · constructor
      · rintro rfl; exact hp.symm.eq_nil
      · rintro rfl; exact hp.eq_nil
    · constructor
      · intro h d hd; exact h d (hp.mem_iff.mpr hd)
      · intro h d hd; exact h d (hp.mem_iff.mp hd)
  constructor
  · apply Option.ext; intro f
    rw [C22_format_iff, C22_format_iff, hall]
  · apply Option.ext; intro f
    rw [C22_new_format_iff, C22_new_format_iff, hall]

/-- C25, hash iteration order: for one and the same list of devices, the active device of each number and the
multiset of inactive devices do not depend on the iteration order. -/
theorem C25_any_hash_order {ord ord' : IterOrder} (hord : ord.Valid) (hord' : ord'.Valid)
    (devices : List (MdDevice D)) :
    (∀ n, HMap.get (MdArray.open ord devices).devices n =
      HMap.get (MdArray.open ord' devices).devices n) ∧
    (MdArray.open ord devices).inactive.Perm (MdArray.open ord' devices).inactive := by
  have hg : ∀ n, HMap.get (MdArray.open ord devices).devices n =
      HMap.get (MdArray.open ord' devices).devices n := by
    intro n; apply Option.ext; intro x
    rw [C24_active_iff hord, C24_active_iff hord']
  refine ⟨hg, ?_⟩
  have hdev := HMap.perm_of_get (MdArray.open_devices hord devices).2
    (MdArray.open_devices hord' devices).2 hg
  have h1 := MdArray.open_accounts hord devices
  have h2 := MdArray.open_accounts hord' devices
  have h3 := (hdev.map (·.2)).append_right (MdArray.open ord devices).inactive
  exact (List.perm_append_left_iff _).mp (h3.symm.trans (h1.trans h2.symm))

/-- For columns without invalid values the claimed number does not depend on the order. -/
theorem claims_perm {devices devices' : List (MdDevice D)} (hp : devices.Perm devices')
    (hv : ∀ d ∈ devices, ∀ s, d.superblock = .superblock s →
      ∀ r ∈ s.deviceRoles, invalidRole r = false) {x : MdDevice D} {n : Nat}
    (h : Claims devices x n) : Claims devices' x n := by
  obtain ⟨tables, s, h1, h2, h3, h4, h5⟩ := h
  have hmap := hp.map fun d => d.superblock.asOption.map (·.deviceRoles)
  have h1' : (devices.map fun d => d.superblock.asOption.map (·.deviceRoles)) = tables.map some := h1
  rw [h1'] at hmap
  have hfm := hmap.filterMap id
  have e1 : (tables.map some).filterMap id = tables := by
    rw [List.filterMap_map]; exact List.filterMap_some
  rw [e1] at hfm
  obtain ⟨tables', ht'⟩ : ∃ tables', Tables devices' tables' := by
    refine ⟨(devices'.map fun d => d.superblock.asOption.map (·.deviceRoles)).filterMap id, ?_⟩
    unfold Tables
    have hsome : ∀ y ∈ (devices'.map fun d => d.superblock.asOption.map (·.deviceRoles)),
        y ≠ none := by
      rintro y hy rfl
      have := hmap.mem_iff.mpr hy
      simp at this
    generalize (devices'.map fun d => d.superblock.asOption.map (·.deviceRoles)) = l at hsome
    induction l with
    | nil => rfl
    | cons a l ih =>
      cases a with
      | none => exact absurd rfl (hsome none (by simp))
      | some a =>
        have := ih (fun y hy => hsome y (by simp [hy]))
        rw [List.filterMap_cons_some (f := id) (a := some a) (b := a) rfl, List.map_cons, ← this]
  have hpt : tables.Perm tables' := by
    have h2' : (devices'.map fun d => d.superblock.asOption.map (·.deviceRoles)) =
      tables'.map some := ht'
    rw [h2', List.filterMap_map] at hfm
    have e2 : tables'.filterMap (id ∘ some) = tables' := List.filterMap_some
    rw [e2] at hfm
    exact hfm
  have hcol : ∀ i, (column tables i).Perm (column tables' i) := fun i => hpt.filterMap _
  have hinv : ∀ i, ∀ r ∈ column tables i, invalidRole r = false := by
    intro i r hr
    unfold column at hr
    obtain ⟨t, ht, hr⟩ := List.mem_filterMap.mp hr
    have : some t ∈ devices.map fun d => d.superblock.asOption.map (·.deviceRoles) := by
      rw [h1']; exact List.mem_map.mpr ⟨t, ht, rfl⟩
    obtain ⟨d, hd, hdt⟩ := List.mem_map.mp this
    obtain ⟨s', hs', rfl⟩ := Option.map_eq_some_iff.mp hdt
    exact hv d hd s' (asOption_eq_some.mp hs') r (List.mem_of_getElem? hr)
  have htw : ∀ c : List Role, (∀ r ∈ c, invalidRole r = false) →
      c.takeWhile (fun r => !invalidRole r) = c := by
    intro c hc
    have := List.takeWhile_append_of_pos (p := fun r => !invalidRole r) (l₁ := c) (l₂ := [])
      (fun r hr => by rw [hc r hr]; rfl)
    simpa using this
  have hconf : ∀ i, ¬ Conflict (column tables' i) := by
    intro i hc
    apply h2 i
    unfold Conflict at hc ⊢
    rw [htw _ (fun r hr => hinv i r ((hcol i).mem_iff.mpr hr))] at hc
    rw [htw _ (hinv i)]
    obtain ⟨a, ha, b, hb, rest⟩ := hc
    exact ⟨a, (hcol i).mem_iff.mpr ha, b, (hcol i).mem_iff.mpr hb, rest⟩
  refine ⟨tables', s, ht', hconf, h3, ?_, h5⟩
  -- the merged value is the only opinion
  have hop : opinion ⟨n⟩ = true := by
    simp only [opinion, invalidRole]
    have e1 : decide (0xfeff < n) = false := by simp; omega
    have e2 : decide (n = 0xffff) = false := by simp; omega
    have e3 : decide (n = 0xfffe) = false := by simp; omega
    rw [e1, e2, e3]; rfl
  have hmem : ∀ c : List Role, mergedValue c = some ⟨n⟩ → (⟨n⟩ : Role) ∈ c := by
    intro c hc
    unfold mergedValue at hc
    rw [Option.or_eq_some_iff, Option.or_eq_some_iff] at hc
    rcases hc with hc | ⟨_, hc | ⟨_, hc⟩⟩
    · exact (List.mem_filter.mp (List.mem_of_getLast? hc)).1
    · exact (List.mem_filter.mp (List.mem_of_head? hc)).1
    · exact List.mem_of_getLast? hc
  have hm' := (hcol s.deviceRoleIndex).mem_iff.mp (hmem _ h4)
  have hnone : (column tables' s.deviceRoleIndex).filter invalidRole = [] := by
    rw [List.filter_eq_nil_iff]
    intro r hr
    rw [hinv _ r ((hcol _).mem_iff.mpr hr)]; simp
  unfold mergedValue
  rw [hnone]
  cases hh : ((column tables' s.deviceRoleIndex).filter opinion).head? with
  | none =>
    rw [List.head?_eq_none_iff, List.filter_eq_nil_iff] at hh
    exact absurd hop (hh _ hm')
  | some r =>
    have hr := List.mem_filter.mp (List.mem_of_head? hh)
    have hrn : r = ⟨n⟩ := by
      by_contra hne
      apply hconf s.deviceRoleIndex
      unfold Conflict
      rw [htw _ (fun r hr => hinv _ r ((hcol _).mem_iff.mpr hr))]
      exact ⟨r, hr.1, ⟨n⟩, hm', hr.2, hop, hne⟩
    rw [hrn]; rfl

/-- C25: if no role table contains an invalid value, the active device of each number and the multiset of
inactive devices do not depend on the order of the devices.  Missing for the full claim: tables with invalid
values, for which it is false (`C25_order_matters`). -/
theorem C25_any_order_partial {ord ord' : IterOrder} (hord : ord.Valid) (hord' : ord'.Valid)
    {devices devices' : List (MdDevice D)} (hp : devices.Perm devices')
    (hv : ∀ d ∈ devices, ∀ s, d.superblock = .superblock s →
      ∀ r ∈ s.deviceRoles, invalidRole r = false) :
    (∀ n, HMap.get (MdArray.open ord devices).devices n =
      HMap.get (MdArray.open ord' devices').devices n) ∧
    (MdArray.open ord devices).inactive.Perm (MdArray.open ord' devices').inactive := by
  have hcl : ∀ x n, Claims devices x n ↔ Claims devices' x n := fun x n =>
    ⟨claims_perm hp hv, claims_perm hp.symm (fun d hd => hv d (hp.mem_iff.mpr hd))⟩
  have hg : ∀ n, HMap.get (MdArray.open ord devices).devices n =
      HMap.get (MdArray.open ord' devices').devices n := by
    intro n
    have hpf : (devices.filter fun d =>
          decide (MdArray.deviceNumber (MdArray.mergedRoles devices) d = some n)).Perm
        (devices'.filter fun d =>
          decide (MdArray.deviceNumber (MdArray.mergedRoles devices') d = some n)) := by
      have hfun : (fun d : MdDevice D => decide (MdArray.deviceNumber (MdArray.mergedRoles devices) d = some n)) =
          (fun d : MdDevice D =>
            decide (MdArray.deviceNumber (MdArray.mergedRoles devices') d = some n)) := by
        funext d
        refine decide_eq_decide.mpr ?_
        rw [MdArray.deviceNumber_eq, MdArray.deviceNumber_eq, hcl]
      rw [hfun]
      exact hp.filter _
    apply Option.ext; intro x
    rw [MdArray.open_get hord, MdArray.open_get hord']
    constructor
    · intro h; rw [h] at hpf; exact List.perm_singleton.mp hpf.symm
    · intro h; rw [h] at hpf; exact List.perm_singleton.mp hpf
  refine ⟨hg, ?_⟩
  have hdev := HMap.perm_of_get (MdArray.open_devices hord devices).2
    (MdArray.open_devices hord' devices').2 hg
  have h1 := MdArray.open_accounts hord devices
  have h2 := MdArray.open_accounts hord' devices'
  have h3 := (hdev.map (·.2)).append_right (MdArray.open ord devices).inactive
  exact (List.perm_append_left_iff _).mp (h3.symm.trans (h1.trans (hp.trans h2.symm)))

/-- A device whose superblock has the given role index and table. -/
def roleDevice (index : Nat) (roles : List Nat) : MdDevice Unit where
  id := ⟨index, none⟩
  superblock := .superblock
    { majorVersion := 1, minorVersion := 2, arrayUuid := .long [], arrayName := none
      algorithm := .raid6 .leftSymmetric, sectorsPerDevice := 16, chunkSize := 1
      raidDeviceCount := 4, reshapeStatus := none, dataOffset := 0, deviceRoleIndex := index
      eventCount := 1, deviceRoles := roles.map Role.mk }
  device := ()

/-- C25 is false with invalid roles: the same three devices in two orders; device 0 is active in one and not in
the other. -/
theorem C25_order_matters : ∃ (a b c : MdDevice Unit), ∀ ord : IterOrder, ord.Valid →
    HMap.get (MdArray.open ord [a, b, c]).devices 0 = none ∧
    HMap.get (MdArray.open ord [a, c, b]).devices 0 = some a := by
  refine ⟨roleDevice 0 [0, 1], roleDevice 5 [0, 2], roleDevice 6 [0, 0xff00], fun ord hord => ⟨?_, ?_⟩⟩
  · have : ∀ x, HMap.get (MdArray.open ord
        [roleDevice 0 [0, 1], roleDevice 5 [0, 2], roleDevice 6 [0, 0xff00]]).devices 0 ≠ some x := by
      intro x hx
      rw [MdArray.open_get hord] at hx
      have : ([] : List (MdDevice Unit)) = [x] := hx
      cases this
    cases h : HMap.get (MdArray.open ord
        [roleDevice 0 [0, 1], roleDevice 5 [0, 2], roleDevice 6 [0, 0xff00]]).devices 0 with
    | none => rfl
    | some x => exact absurd h (this x)
  · rw [MdArray.open_get hord]
    rfl

/-- Witness for C22-C27: four devices that agree; each becomes the active device of its number. -/
example (ord : IterOrder) (hord : ord.Valid) :
    let ds := (List.range 4).map fun i => roleDevice i [0, 1, 2, 3]
    (MdArray.open ord ds).format = some ⟨.raid6 .leftSymmetric, 4, 16, 1⟩ ∧
    (∀ i, i < 4 → HMap.get (MdArray.open ord ds).devices i = some (roleDevice i [0, 1, 2, 3])) ∧
    Tables ds (List.replicate 4 [⟨0⟩, ⟨1⟩, ⟨2⟩, ⟨3⟩]) := by
  refine ⟨rfl, fun i hi => ?_, rfl⟩
  rw [MdArray.open_get hord]
  match i, hi with
  | 0, _ => rfl
  | 1, _ => rfl
  | 2, _ => rfl
  | 3, _ => rfl

/-- Witness for C26: one of the two devices has no superblock. -/
example : ∃ d ∈ [roleDevice 0 [0], { roleDevice 1 [1] with superblock := .missing }],
    d.superblock = .tooSmall ∨ d.superblock = .missing := 
  ⟨{ roleDevice 1 [1] with superblock := .missing }, by simp, .inr rfl⟩

/-- Two orders of hash iteration. -/
theorem IterOrder.valid_id : IterOrder.Valid fun _ l => l := fun _ _ => .rfl
theorem IterOrder.valid_reverse : IterOrder.Valid fun _ l => l.reverse := fun _ _ => List.reverse_perm _

/-- C22: two devices that disagree about the number of devices. -/
def disagreeing : List (MdDevice Unit) :=
  [roleDevice 0 [0, 1],
    ⟨⟨1, none⟩, .superblock
    { majorVersion := 1, minorVersion := 2, arrayUuid := .long [], arrayName := none
      algorithm := .raid6 .leftSymmetric, sectorsPerDevice := 16, chunkSize := 1
      raidDeviceCount := 5, reshapeStatus := none, dataOffset := 0, deviceRoleIndex := 1
      eventCount := 1, deviceRoles := [⟨0⟩, ⟨1⟩] }, ()⟩]

example (dev : BlockDev W Unit) (ord : IterOrder) (w : W) :=
  C22_no_format_no_data dev ord disagreeing
    (fun f ⟨_, h⟩ => by
      obtain ⟨_, e, -, h1, -⟩ := h _ (List.mem_cons_self ..)
      obtain ⟨_, e', -, h2, -⟩ := h _ (List.mem_cons_of_mem _ (List.mem_cons_self ..))
      cases e; cases e'
      exact absurd (h1.trans h2.symm) (by decide))
    (fun f ⟨_, h⟩ => by
      obtain ⟨_, e, st, h1, -⟩ := h _ (List.mem_cons_self ..)
      cases e; cases h1) w

/-- C23 and C25: the four devices, in two orders of hash iteration and two orders of the devices. -/
example := C23_every_device_once IterOrder.valid_reverse
  ((List.range 4).map fun i => roleDevice i [0, 1, 2, 3])
example := C25_formats_any_order (fun _ l => l) (fun _ l => l.reverse)
  (devices := [roleDevice 0 [0, 1], roleDevice 1 [0, 1]]) (devices' := [roleDevice 1 [0, 1], roleDevice 0 [0, 1]])
  (.swap _ _ _)
example := C25_any_hash_order IterOrder.valid_id IterOrder.valid_reverse
  ((List.range 4).map fun i => roleDevice i [0, 1, 2, 3])
example := C25_any_order_partial IterOrder.valid_id IterOrder.valid_reverse
  (devices := [roleDevice 0 [0, 1], roleDevice 1 [0, 1]]) (devices' := [roleDevice 1 [0, 1], roleDevice 0 [0, 1]])
  (.swap _ _ _) (fun d hd s hs => by
    rcases List.mem_cons.mp hd with rfl | hd
    · cases hs; decide
    · cases List.mem_singleton.mp hd
      cases hs; decide)

/-- C26 applies to these two devices. -/
example (dev : BlockDev W Unit) (w : W) := C26_missing_superblock_disables IterOrder.valid_reverse dev
  [roleDevice 0 [0], { roleDevice 1 [1] with superblock := .missing }]
  ⟨{ roleDevice 1 [1] with superblock := .missing }, by simp, .inr rfl⟩ w

/-- C27: one device calls itself a spare at index 1, the other knows it as member 1. -/
example := C27_exists_iff (devices := [roleDevice 0 [0, 1], roleDevice 1 [0, 0xffff]])
  (tables := [[⟨0⟩, ⟨1⟩], [⟨0⟩, ⟨0xffff⟩]]) rfl (by simp)
example := C27_length (devices := [roleDevice 0 [0, 1, 2], roleDevice 1 [0, 0xffff]])
  (tables := [[⟨0⟩, ⟨1⟩, ⟨2⟩], [⟨0⟩, ⟨0xffff⟩]]) (t := [⟨0⟩, ⟨1⟩, ⟨2⟩]) rfl rfl 3
example := C27_opinion (devices := [roleDevice 0 [0, 1], roleDevice 1 [0, 0xffff]])
  (tables := [[⟨0⟩, ⟨1⟩], [⟨0⟩, ⟨0xffff⟩]]) (t := [⟨0⟩, ⟨1⟩]) (i := 1) (o := ⟨1⟩) rfl rfl
  (by simp [invalidRole]) ⟨[⟨0⟩, ⟨1⟩], by simp, rfl⟩ (by decide)
  (by simp [opinion, invalidRole])

/-! ## C20 -/

/-- C20 for version 1: the members' 4096-byte superblocks have the reshape bit (4) clear and the same
current-format fields.  Then block_count and read_block are those of an array with that format alone.
Missing for the full claim: version 0.90, for which it is false (`C20_v0_unreadable`). -/
theorem C20_v1_current_format_partial (dev : BlockDev W D) (ord : IterOrder)
    (devices : List (MdDevice D)) (h0 : devices ≠ []) (f : MdFormat)
    (h : ∀ d ∈ devices, ∃ b minor,
      d.superblock = .superblock (SuperblockV1.mk b minor).toSuperblock ∧
      leNat (slice b 8 4) / 4 % 2 = 0 ∧
      MdAlgorithm.fromLevelAndLayout (leNat (slice b 72 4)) (leNat (slice b 76 4)) = f.algorithm ∧
      leNat (slice b 92 4) = f.deviceCount ∧ leNat (slice b 80 8) = f.sectorsPerDevice ∧
      leNat (slice b 88 4) = f.chunkSize) (w : W) :
    (MdArray.dev dev).blockCount (MdArray.open ord devices) w =
      (w, Res.ofOption .invalidData f.dataSectorCount) ∧
    ∀ b buf, 512 ≤ buf.length →
      ((MdArray.dev dev).readBlock b buf (w, MdArray.open ord devices)).2 =
      ((MdArray.dev dev).readBlock b buf (w, { MdArray.open ord devices with
        format := some f, newFormat := none })).2 := by
  have hf : (MdArray.open ord devices).format = some f := by
    rw [C22_format_iff]
    refine ⟨h0, fun d hd => ?_⟩
    obtain ⟨b, minor, hs, _, h1, h2, h3, h4⟩ := h d hd
    exact ⟨_, hs, h1, h2, h3, h4⟩
  have hn : (MdArray.open ord devices).newFormat = none := by
    cases hc : (MdArray.open ord devices).newFormat with
    | none => rfl
    | some g =>
      obtain ⟨_, hall⟩ := (C22_new_format_iff ord devices g).mp hc
      obtain ⟨d, hd⟩ := List.exists_mem_of_ne_nil devices h0
      obtain ⟨s, hs, st, hst, _⟩ := hall d hd
      obtain ⟨b, minor, hs', hbit, _⟩ := h d hd
      rw [hs] at hs'
      cases hs'
      have : (SuperblockV1.mk b minor).toSuperblock.reshapeStatus = none := by
        show (if hasBit (leNat (slice b 8 4)) 2 = true then _ else none) = none
        rw [hasBit_iff, if_neg]
        simp only [Nat.reducePow, decide_eq_true_eq]
        omega
      rw [this] at hst
      cases hst
  have hu : MdArray.formatInUse (MdArray.open ord devices) = some f := by
    unfold MdArray.formatInUse; rw [hn, hf]; rfl
  constructor
  · show (w, MdArray.blockCount _) = _
    unfold MdArray.blockCount
    rw [hu]
    rfl
  · intro b buf hb
    have e : ({ MdArray.open ord devices with format := some f, newFormat := none } : ArrayDef D) =
        MdArray.open ord devices := by
      rw [← hf, ← hn]
    rw [e]

/-- C20 is false for version 0.90: an array not being reshaped has zeros in the reshape fields of its
superblocks, and then, whatever its level, no block can be read (Unsupported) and there is no block count. -/
theorem C20_v0_unreadable (dev : BlockDev W D) (ord : IterOrder)
    (devices : List (MdDevice D)) (h0 : devices ≠ []) (n size : Nat)
    (h : ∀ d ∈ devices, ∃ m : Mdp0, ∃ e : Endian, m.Wf ∧
      d.superblock = .superblock (SuperblockV0.ofView e (m.encode e.enc)).toSuperblock ∧
      m.raid_disks = n ∧ m.size = size ∧ m.new_level = 0 ∧ m.new_layout = 0 ∧ m.new_chunk = 0 ∧
      m.delta_disks = 0) (w : W) :
    (MdArray.dev dev).blockCount (MdArray.open ord devices) w = (w, .err .invalidData) ∧
    ∀ b buf, 512 ≤ buf.length →
      (MdArray.dev dev).readBlock b buf (w, MdArray.open ord devices) =
        ((w, MdArray.open ord devices), .err .unsupported) := by
  have hn : (MdArray.open ord devices).newFormat = some ⟨.unsupported 0 0, n, size, 0⟩ := by
    rw [C22_new_format_iff]
    refine ⟨h0, fun d hd => ?_⟩
    obtain ⟨m, e, hw, hs, h1, h2, h3, h4, h5, h6⟩ := h d hd
    obtain ⟨_, _, _, _, _, k6, _, k8, k9, _⟩ := C40_round_trip m hw e
    refine ⟨_, hs, _, k9, ?_, ?_, ?_, ?_, h5⟩
    · rw [h3, h4]; rfl
    · rw [k8, h6]; exact hw.raid_disks
    · rw [k8, h6, h1, Nat.add_zero]
    · rw [k6, h2]
  generalize MdArray.open ord devices = a at *
  have hu : MdArray.formatInUse a = some ⟨.unsupported 0 0, n, size, 0⟩ := by
    unfold MdArray.formatInUse; rw [hn]; rfl
  constructor
  · show (w, MdArray.blockCount a) = _
    unfold MdArray.blockCount; rw [hu]; rfl
  · intro b buf hb
    show MdArray.readBlock dev b buf (w, a) = _
    unfold MdArray.readBlock
    rw [if_neg (by omega)]
    simp only [hu]
    rfl

/-- Witness for `C20_v0_unreadable`: a RAID6 0.90 superblock of an array that is not being reshaped. -/
example : ∃ m : Mdp0, m.Wf ∧ m.level = 6 ∧ m.layout = 2 ∧ m.raid_disks = 4 ∧ m.size = 1024 ∧
    m.new_level = 0 ∧ m.new_layout = 0 ∧ m.new_chunk = 0 ∧ m.delta_disks = 0 :=
  ⟨sampleMdp0, sampleMdp0_wf, rfl, rfl, rfl, rfl, rfl, rfl, rfl, rfl⟩

/-- Witness for `C20_v1_current_format_partial`: the sample superblock without the reshape bit. -/
example : ∃ b : Bytes, leNat (slice b 8 4) / 4 % 2 = 0 ∧
    MdAlgorithm.fromLevelAndLayout (leNat (slice b 72 4)) (leNat (slice b 76 4)) =
      .raid6 .leftSymmetric ∧ leNat (slice b 92 4) = 4 := by
  have hw : ({ sampleMdp1 with feature_map := 1 } : Mdp1).Wf :=
    { sampleMdp1_wf with feature_map := by decide }
  refine ⟨({ sampleMdp1 with feature_map := 1 } : Mdp1).encode, ?_, ?_, ?_⟩
  · rw [Mdp1.slice_feature_map hw, leNat_leBytes hw.feature_map]; rfl
  · rw [Mdp1.slice_level hw, Mdp1.slice_layout hw, leNat_leBytes hw.level, leNat_leBytes hw.layout]
    rfl
  · rw [Mdp1.slice_raid_disks hw, leNat_leBytes hw.raid_disks]; rfl

end MdRecover
