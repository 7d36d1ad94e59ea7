import Verif.Lemmas.HMap
import Verif.Lemmas.Merge

namespace MdRecover
open MdSpec

theorem asOption_eq_some {d : DeviceSuperblock} {s : Superblock} :
    d.asOption = some s ↔ d = .superblock s := by
  cases d <;> simp [DeviceSuperblock.asOption]

theorem asOption_eq_none {d : DeviceSuperblock} :
    d.asOption = none ↔ ∀ s, d ≠ .superblock s := by
  cases d <;> simp [DeviceSuperblock.asOption]

theorem tables_unique {D : Type} {devices : List (MdDevice D)} {t t' : List (List Role)}
    (h : Tables devices t) (h' : Tables devices t') : t = t' :=
  List.map_injective_iff.mpr (fun _ _ h => Option.some.inj h) (h.symm.trans h')

namespace MdArray
variable {D : Type}

/-- `reduce` of equal-or-none. -/
theorem foldl_agree (l : List (Option MdFormat)) (a : Option MdFormat) (f : MdFormat) :
    l.foldl agree a = some f ↔ a = some f ∧ ∀ x ∈ l, x = some f := by
  induction l generalizing a with
  | nil => simp
  | cons x l ih =>
    rw [List.foldl_cons, ih]
    simp only [List.mem_cons, forall_eq_or_imp, agree]
    constructor
    · rintro ⟨h, hl⟩
      by_cases hax : a = x
      · rw [if_pos hax] at h
        exact ⟨h, by rw [← hax, h], hl⟩
      · rw [if_neg hax] at h; cases h
    · rintro ⟨rfl, rfl, hl⟩
      exact ⟨by simp, hl⟩

theorem reduce_agree (l : List (Option MdFormat)) (f : MdFormat) :
    reduceFlatten agree l = some f ↔ l ≠ [] ∧ ∀ x ∈ l, x = some f := by
  cases l with
  | nil => simp [reduceFlatten]
  | cons a l =>
    rw [reduceFlatten, foldl_agree]
    simp

/-- Merged role table of the devices, exactly. -/
theorem mergedRoles_eq (devices : List (MdDevice D)) (t : List Role) :
    mergedRoles devices = some t ↔ devices ≠ [] ∧ ∃ tables, Tables devices tables ∧
      (∀ i, ¬ Conflict (column tables i)) ∧ ∀ i : Nat, t[i]? = mergedValue (column tables i) := by
  unfold mergedRoles
  by_cases hn : none ∈ devices.map fun d => d.superblock.asOption.map (·.deviceRoles)
  · rw [reduce_merge_missing hn]
    simp only [reduceCtorEq, false_iff, not_and, not_exists]
    intro _ tables ht
    rw [ht] at hn
    simp at hn
  · have hex : ∃ tables, Tables devices tables := by
      refine ⟨devices.filterMap fun d => d.superblock.asOption.map (·.deviceRoles), ?_⟩
      unfold Tables
      rw [← List.filterMap_eq_map, ← List.filterMap_eq_map]
      clear t
      induction devices with
      | nil => rfl
      | cons d ds ih =>
        rw [List.map_cons, List.mem_cons, not_or] at hn
        cases hd : d.superblock.asOption with
        | none => rw [hd] at hn; exact absurd rfl hn.1
        | some s =>
          have := ih hn.2
          simp only [List.filterMap_cons, hd, Function.comp, Option.map_some, List.cons.injEq,
            true_and] at this ⊢
          exact this
    obtain ⟨tables, ht⟩ := hex
    have ht' : (devices.map fun d => d.superblock.asOption.map (·.deviceRoles)) =
        tables.map some := ht
    rw [ht']
    by_cases h0 : devices = []
    · subst h0
      have : tables = [] := by simpa using ht'.symm
      subst this
      simp [reduceFlatten]
    · have ht0 : tables ≠ [] := by
        rintro rfl
        simp at ht'
        exact h0 ht'
      rw [reduce_merge ht0]
      constructor
      · exact fun h => ⟨h0, tables, ht, h⟩
      · rintro ⟨_, tables', h1, h2⟩
        rw [tables_unique ht h1]; exact h2

theorem mergedValue_eq_none (c : List Role) : mergedValue c = none ↔ c = [] := by
  constructor
  · intro hc
    unfold mergedValue at hc
    simp only [Option.or_eq_none_iff] at hc
    exact List.getLast?_eq_none_iff.mp hc.2.2
  · rintro rfl; rfl

theorem column_eq_nil {tables : List (List Role)} {i : Nat} :
    column tables i = [] ↔ ∀ t ∈ tables, t.length ≤ i := by
  unfold column
  rw [List.filterMap_eq_nil_iff]
  simp only [List.getElem?_eq_none_iff]

/-- A function on indexes that is `none` from some index on is a list. -/
theorem exists_list (N : Nat) : ∀ f : Nat → Option Role, (∀ i, N ≤ i → f i = none) →
    (∀ i j, i ≤ j → f i = none → f j = none) → ∃ t : List Role, ∀ i : Nat, t[i]? = f i := by
  induction N with
  | zero => exact fun f hN _ => ⟨[], fun i => by rw [hN i (Nat.zero_le _)]; rfl⟩
  | succ N ih =>
    intro f hN hm
    cases hf0 : f 0 with
    | none => exact ⟨[], fun i => by rw [hm 0 i (Nat.zero_le _) hf0]; rfl⟩
    | some r =>
      obtain ⟨t, ht⟩ := ih (fun i => f (i + 1)) (fun i hi => hN _ (by omega))
        (fun i j hij hi => hm _ _ (by omega) hi)
      refine ⟨r :: t, fun i => ?_⟩
      cases i with
      | zero => simp [hf0]
      | succ i => simpa using ht i

theorem length_le_sum {tables : List (List Role)} {t : List Role} (ht : t ∈ tables) :
    t.length ≤ (tables.map List.length).sum := by
  induction tables with
  | nil => simp at ht
  | cons u us ih =>
    rw [List.map_cons, List.sum_cons]
    rcases List.mem_cons.mp ht with rfl | ht
    · omega
    · have := ih ht; omega

theorem exists_table (tables : List (List Role)) :
    ∃ t : List Role, ∀ i : Nat, t[i]? = mergedValue (column tables i) := by
  refine exists_list (tables.map List.length).sum _ (fun i hi => ?_) (fun i j hij hi => ?_)
  · rw [mergedValue_eq_none, column_eq_nil]
    intro t ht
    have := length_le_sum ht
    omega
  · rw [mergedValue_eq_none, column_eq_nil] at hi ⊢
    intro t ht
    have := hi t ht
    omega

theorem deviceNumber_eq (devices : List (MdDevice D)) (x : MdDevice D) (n : Nat) :
    deviceNumber (mergedRoles devices) x = some n ↔ Claims devices x n := by
  unfold deviceNumber Claims
  constructor
  · intro h
    rw [Option.bind_eq_some_iff] at h
    obtain ⟨i, hi, h⟩ := h
    rw [Option.map_eq_some_iff] at hi
    obtain ⟨s, hs, rfl⟩ := hi
    rw [Option.bind_eq_some_iff] at h
    obtain ⟨t, ht, h⟩ := h
    rw [Option.bind_eq_some_iff] at h
    obtain ⟨r, hr, h⟩ := h
    obtain ⟨_, tables, h1, h2, h3⟩ := (mergedRoles_eq devices t).mp ht
    refine ⟨tables, s, h1, h2, asOption_eq_some.mp hs, ?_⟩
    rw [← h3, hr]
    unfold Role.deviceNumber at h
    split at h
    · rename_i hle
      cases h
      exact ⟨rfl, hle⟩
    · cases h
  · rintro ⟨tables, s, h1, h2, h3, h4, h5⟩
    have h0 : devices ≠ [] := by
      rintro rfl
      have : tables = [] := by
        unfold Tables at h1
        simpa using h1.symm
      subst this
      simp [column, mergedValue] at h4
    obtain ⟨t, hent⟩ := exists_table tables
    have ht := (mergedRoles_eq devices t).mpr ⟨h0, tables, h1, h2, hent⟩
    obtain ⟨_, tables', k1, k2, k3⟩ := (mergedRoles_eq devices t).mp ht
    rw [tables_unique k1 h1] at k3
    rw [asOption_eq_some.mpr h3, ht]
    simp only [Option.map_some, Option.bind_some, k3, h4, Role.deviceNumber, Role.maxPosition, h5,
      if_true]

/-- Which devices have which number. -/
def numbered (devices : List (MdDevice D)) : List (Option Nat × MdDevice D) :=
  devices.map fun d => (deviceNumber (mergedRoles devices) d, d)

theorem groups_perm {ord : IterOrder} (hord : ord.Valid) (devices : List (MdDevice D)) :
    (groups ord devices).Perm (HMap.fromMultiIter (numbered devices)) := hord _ _

theorem distinct_active {gs : List (Option Nat × List (MdDevice D))} (h : HMap.Distinct gs) :
    HMap.Distinct (gs.filterMap activeOf) := by
  have hs : List.Sublist (((gs.filterMap activeOf).map (·.1)).map some) (gs.map (·.1)) := by
    clear h
    induction gs with
    | nil => exact List.Sublist.slnil
    | cons g gs ih =>
      obtain ⟨k, ds⟩ := g
      cases ha : activeOf (k, ds) with
      | none =>
        rw [List.filterMap_cons_none ha]
        exact ih.cons _
      | some e =>
        rw [List.filterMap_cons_some ha]
        have hk : k = some e.1 := by
          unfold activeOf at ha
          split at ha
          · rename_i heq; cases ha; cases heq; rfl
          · cases ha
        rw [hk]
        exact ih.cons_cons _
  have := List.Nodup.sublist hs h
  exact List.Nodup.of_map _ this

theorem open_devices {ord : IterOrder} (hord : ord.Valid) (devices : List (MdDevice D)) :
    (MdArray.open ord devices).devices = (groups ord devices).filterMap activeOf ∧
      HMap.Distinct (MdArray.open ord devices).devices := by
  have hd : HMap.Distinct ((groups ord devices).filterMap activeOf) :=
    distinct_active ((HMap.groups_fromMultiIter _).distinct.perm (groups_perm hord devices).symm)
  have h : (MdArray.open ord devices).devices = (groups ord devices).filterMap activeOf :=
    HMap.ofList_eq hd
  exact ⟨h, by rw [h]; exact hd⟩

theorem activeOf_eq_some {g : Option Nat × List (MdDevice D)} {n : Nat} {x : MdDevice D} :
    activeOf g = some (n, x) ↔ g = (some n, [x]) := by
  unfold activeOf
  split
  · simp only [Option.some.injEq, Prod.mk.injEq, List.cons.injEq, and_true]
  · rename_i h
    simp only [reduceCtorEq, false_iff]
    rintro rfl
    exact h n x rfl

/-- A list has exactly one element satisfying `p`, and it is `x`. -/
theorem filter_eq_singleton {α : Type} {p : α → Bool} {l : List α} {x : α} :
    l.filter p = [x] ↔ ∃ l₁ l₂, l = l₁ ++ x :: l₂ ∧ p x ∧ ∀ y ∈ l₁ ++ l₂, ¬ p y := by
  constructor
  · intro h
    rw [List.filter_eq_cons_iff] at h
    obtain ⟨l₁, l₂, rfl, h1, h2, h3⟩ := h
    refine ⟨l₁, l₂, rfl, h2, fun y hy => ?_⟩
    rcases List.mem_append.mp hy with hy | hy
    · exact h1 y hy
    · exact List.filter_eq_nil_iff.mp h3 y hy
  · rintro ⟨l₁, l₂, rfl, h2, h3⟩
    rw [List.filter_append, List.filter_cons_of_pos h2,
      List.filter_eq_nil_iff.mpr (fun y hy => h3 y (by simp [hy])),
      List.filter_eq_nil_iff.mpr (fun y hy => h3 y (by simp [hy]))]
    rfl

theorem valuesOf_numbered (devices : List (MdDevice D)) (k : Option Nat) :
    HMap.valuesOf (numbered devices) k =
      devices.filter fun d => decide (deviceNumber (mergedRoles devices) d = k) := by
  unfold HMap.valuesOf numbered
  rw [List.filter_map, List.map_map]
  have : ((fun x => x.2) ∘ fun d => (deviceNumber (mergedRoles devices) d, d)) =
      (id : MdDevice D → MdDevice D) := rfl
  rw [this, List.map_id]
  rfl

theorem open_get {ord : IterOrder} (hord : ord.Valid) (devices : List (MdDevice D)) (n : Nat)
    (x : MdDevice D) :
    HMap.get (MdArray.open ord devices).devices n = some x ↔
      (devices.filter fun d => decide (deviceNumber (mergedRoles devices) d = some n)) = [x] := by
  obtain ⟨h1, h2⟩ := open_devices hord devices
  rw [HMap.get_eq_some h2, h1, List.mem_filterMap]
  simp only [activeOf_eq_some, exists_eq_right]
  rw [(groups_perm hord devices).mem_iff, HMap.mem_fromMultiIter, valuesOf_numbered]
  constructor
  · exact fun h => h.1.symm
  · exact fun h => ⟨h.symm, by simp⟩

theorem split_perm (gs : List (Option Nat × List (MdDevice D))) :
    ((gs.filterMap activeOf).map (·.2) ++ (gs.filterMap inactiveOf).flatten).Perm
      (gs.map (·.2)).flatten := by
  induction gs with
  | nil => exact List.Perm.nil
  | cons g gs ih =>
    rw [List.map_cons, List.flatten_cons]
    rcases hg : g with ⟨k, ds⟩
    by_cases hact : ∃ n x, k = some n ∧ ds = [x]
    · obtain ⟨n, x, rfl, rfl⟩ := hact
      exact ih.cons x
    · have ha : activeOf (k, ds) = none := by
        unfold activeOf
        split
        · rename_i heq; cases heq; exact absurd ⟨_, _, rfl, rfl⟩ hact
        · rfl
      have hi : inactiveOf (k, ds) = some ds := by
        unfold inactiveOf
        split
        · rename_i heq; cases heq; exact absurd ⟨_, _, rfl, rfl⟩ hact
        · rename_i heq; cases heq; rfl
      rw [List.filterMap_cons_none ha, List.filterMap_cons_some hi, List.flatten_cons]
      refine (List.perm_append_comm_assoc _ _ _).trans ?_
      exact ih.append_left ds

theorem open_accounts {ord : IterOrder} (hord : ord.Valid) (devices : List (MdDevice D)) :
    ((MdArray.open ord devices).devices.map (·.2) ++ (MdArray.open ord devices).inactive).Perm
      devices := by
  rw [(open_devices hord devices).1]
  refine (split_perm (groups ord devices)).trans ?_
  refine (((groups_perm hord devices).map (·.2)).flatten).trans ?_
  refine (HMap.flatten_fromMultiIter _).trans ?_
  unfold numbered
  rw [List.map_map]
  have : ((fun x => x.2) ∘ fun d => (deviceNumber (mergedRoles devices) d, d)) =
      (id : MdDevice D → MdDevice D) := rfl
  rw [this, List.map_id]

end MdArray
end MdRecover
