import Verif.Lemmas.HMap

/-! C33: grouping by key. -/

namespace MdRecover

/-- C33.  The multi-map of a sequence of pairs has an entry `(k, vs)` iff `k` occurs and `vs` lists the
values paired with `k`, in the order of the sequence; no key has two entries; and the lookup of a key
gives that entry, or nothing iff the key does not occur. -/
theorem C33_group_by_key {K V : Type} [DecidableEq K] (l : List (K × V)) :
    (∀ k vs, (k, vs) ∈ HMap.fromMultiIter l ↔
      vs ≠ [] ∧ vs = (l.filter fun e => e.1 = k).map (·.2)) ∧
    ((HMap.fromMultiIter l).map (·.1)).Nodup ∧
    (∀ k vs, (HMap.fromMultiIter l).get k = some vs ↔ (k, vs) ∈ HMap.fromMultiIter l) ∧
    (∀ k, (HMap.fromMultiIter l).get k = none ↔ ∀ v, (k, v) ∉ l) := by
  have hg := HMap.groups_fromMultiIter l
  refine ⟨fun k vs => ?_, hg.distinct, fun k vs => HMap.get_eq_some hg.distinct, fun k => ?_⟩
  · rw [HMap.mem_fromMultiIter, and_comm]; rfl
  · rw [hg.get]
    by_cases h : HMap.valuesOf l k = []
    · rw [if_pos h]
      simp only [HMap.valuesOf, List.map_eq_nil_iff, List.filter_eq_nil_iff, decide_eq_true_eq,
        Prod.forall] at h
      simp only [true_iff]
      intro v hv
      exact h k v hv rfl
    · rw [if_neg h]
      simp only [reduceCtorEq, false_iff, not_forall, not_not]
      simp only [HMap.valuesOf, List.map_eq_nil_iff, List.filter_eq_nil_iff, decide_eq_true_eq,
        Prod.forall, not_forall, not_not] at h
      obtain ⟨a, v, hv, rfl⟩ := h
      exact ⟨v, hv⟩

/-- C33, no loss: the values of all entries together are the values of the sequence, as a multiset. -/
theorem C33_nothing_lost {K V : Type} [DecidableEq K] (l : List (K × V)) :
    ((HMap.fromMultiIter l).map (·.2)).flatten.Perm (l.map (·.2)) :=
  HMap.flatten_fromMultiIter l

example : HMap.fromMultiIter [(1, 'a'), (2, 'b'), (1, 'c')] = [(2, ['b']), (1, ['a', 'c'])] := by
  decide

end MdRecover
