import Verif.Model.HMap
import Mathlib.Data.List.Nodup
import Mathlib.Data.List.Perm.Basic

namespace MdRecover
namespace HMap
variable {K V : Type} [DecidableEq K]

/-- The keys of a map are distinct. -/
def Distinct (m : HMap K V) : Prop := (m.map (·.1)).Nodup

theorem get_cons (e : K × V) (m : HMap K V) (k : K) :
    get (e :: m) k = if e.1 = k then some e.2 else get m k := by
  unfold get
  rw [List.find?_cons]
  by_cases h : e.1 = k <;> simp [h]

theorem get_eq_some {m : HMap K V} (hm : m.Distinct) {k : K} {v : V} :
    m.get k = some v ↔ (k, v) ∈ m := by
  induction m with
  | nil => simp [get]
  | cons e m ih =>
    have hm' : e.1 ∉ m.map (·.1) ∧ (m.map (·.1)).Nodup := List.nodup_cons.mp hm
    rw [get_cons, List.mem_cons]
    by_cases h : e.1 = k
    · rw [if_pos h]
      constructor
      · intro hv; left; cases hv; subst h; rfl
      · rintro (h' | h')
        · rw [← h']
        · exact absurd (List.mem_map.mpr ⟨_, h', h.symm⟩) hm'.1
    · rw [if_neg h, ih hm'.2]
      constructor
      · exact .inr
      · rintro (h' | h')
        · rw [← h'] at h; exact absurd rfl h
        · exact h'

theorem get_eq_none {m : HMap K V} {k : K} : m.get k = none ↔ ∀ v, (k, v) ∉ m := by
  induction m with
  | nil => simp [get]
  | cons e m ih =>
    rw [get_cons]
    by_cases h : e.1 = k
    · rw [if_pos h]
      simp only [reduceCtorEq, false_iff, not_forall, not_not]
      exact ⟨e.2, by rw [← h]; simp⟩
    · rw [if_neg h, ih]
      constructor
      · intro hn v hv
        rcases List.mem_cons.mp hv with h' | h'
        · rw [← h'] at h; exact h rfl
        · exact hn v h'
      · intro hn v hv
        exact hn v (List.mem_cons_of_mem _ hv)

omit [DecidableEq K] in
theorem Distinct.perm {m m' : HMap K V} (hm : m.Distinct) (h : m.Perm m') : Distinct m' :=
  (h.map Prod.fst).nodup_iff.mp hm

theorem get_perm {m m' : HMap K V} (hm : m.Distinct) (h : m.Perm m') (k : K) :
    m.get k = m'.get k := by
  apply Option.ext
  intro v
  rw [get_eq_some hm, get_eq_some (hm.perm h), h.mem_iff]

omit [DecidableEq K] in
theorem Distinct.nodup {m : HMap K V} (hm : m.Distinct) : List.Nodup m :=
  List.Nodup.of_map _ hm

theorem perm_of_get {m m' : HMap K V} (hm : m.Distinct) (hm' : m'.Distinct)
    (h : ∀ k, m.get k = m'.get k) : m.Perm m' := by
  rw [List.perm_ext_iff_of_nodup hm.nodup hm'.nodup]
  rintro ⟨k, v⟩
  rw [← get_eq_some hm, ← get_eq_some hm', h]

theorem mem_insert {m : HMap K V} {k : K} {v : V} {e : K × V} :
    e ∈ m.insert k v ↔ (e ∈ m ∧ e.1 ≠ k) ∨ e = (k, v) := by
  simp [insert]

theorem distinct_insert {m : HMap K V} (hm : m.Distinct) (k : K) (v : V) :
    (m.insert k v).Distinct := by
  unfold Distinct insert
  rw [List.map_append, List.nodup_append]
  refine ⟨List.Nodup.sublist (List.Sublist.map _ List.filter_sublist) hm, by simp, ?_⟩
  intro a ha b hb
  simp only [List.mem_map, List.mem_filter, ne_eq, decide_not, Bool.not_eq_eq_eq_not, Bool.not_true,
    decide_eq_false_iff_not] at ha
  obtain ⟨e, ⟨_, h⟩, rfl⟩ := ha
  simp only [List.map_cons, List.map_nil, List.mem_singleton] at hb
  rw [hb]; exact h

theorem get_insert {m : HMap K V} (hm : m.Distinct) (k : K) (v : V) (k' : K) :
    (m.insert k v).get k' = if k' = k then some v else m.get k' := by
  apply Option.ext
  intro v'
  rw [get_eq_some (distinct_insert hm k v), mem_insert]
  by_cases h : k' = k
  · rw [if_pos h]
    subst h
    constructor
    · rintro (⟨_, h⟩ | h)
      · exact absurd rfl h
      · cases h; rfl
    · intro h; cases h; right; rfl
  · rw [if_neg h, get_eq_some hm]
    constructor
    · rintro (⟨h, _⟩ | h')
      · exact h
      · cases h'; exact absurd rfl h
    · intro h'; left; exact ⟨h', h⟩

/-- The values paired with a key. -/
def valuesOf (l : List (K × V)) (k : K) : List V := (l.filter fun e => e.1 = k).map (·.2)

theorem valuesOf_concat (l : List (K × V)) (e : K × V) (k : K) :
    valuesOf (l ++ [e]) k = valuesOf l k ++ if e.1 = k then [e.2] else [] := by
  unfold valuesOf
  rw [List.filter_append, List.map_append]
  by_cases h : e.1 = k <;> simp [h]

/-- `m` is the grouping of `l`. -/
structure Groups (l : List (K × V)) (m : HMap K (List V)) : Prop where
  distinct : m.Distinct
  get : ∀ k, m.get k = if valuesOf l k = [] then none else some (valuesOf l k)

theorem Groups.push {l : List (K × V)} {m : HMap K (List V)} (h : Groups l m) (e : K × V) :
    Groups (l ++ [e]) (m.push e) := by
  have hm := h.get e.1
  have key : m.push e = m.insert e.1 (valuesOf l e.1 ++ [e.2]) := by
    unfold HMap.push
    rw [hm]
    by_cases h0 : valuesOf l e.1 = []
    · rw [if_pos h0, h0]; rfl
    · rw [if_neg h0]
  rw [key]
  refine ⟨distinct_insert h.distinct _ _, fun k => ?_⟩
  rw [get_insert h.distinct, valuesOf_concat]
  by_cases hk : k = e.1
  · subst hk
    simp
  · have hk' : ¬ e.1 = k := fun h => hk h.symm
    rw [if_neg hk, if_neg hk', List.append_nil, h.get]

theorem Groups.foldl {l₀ : List (K × V)} {m : HMap K (List V)} (h : Groups l₀ m) :
    ∀ l : List (K × V), Groups (l₀ ++ l) (l.foldl HMap.push m)
  | [] => by simpa using h
  | e :: l => by
    have := Groups.foldl (h.push e) l
    rw [List.append_assoc] at this
    exact this

theorem groups_fromMultiIter (l : List (K × V)) : Groups l (fromMultiIter l) := by
  have h0 : Groups ([] : List (K × V)) ([] : HMap K (List V)) :=
    ⟨List.nodup_nil, fun k => rfl⟩
  exact h0.foldl l

theorem mem_fromMultiIter {l : List (K × V)} {k : K} {vs : List V} :
    (k, vs) ∈ fromMultiIter l ↔ vs = valuesOf l k ∧ vs ≠ [] := by
  rw [← get_eq_some (groups_fromMultiIter l).distinct, (groups_fromMultiIter l).get]
  by_cases h : valuesOf l k = []
  · rw [if_pos h, h]; simp
  · rw [if_neg h]
    constructor
    · intro h'; cases h'; exact ⟨rfl, h⟩
    · rintro ⟨rfl, _⟩; rfl

theorem insert_of_fresh {m : HMap K V} {k : K} (h : ∀ v, (k, v) ∉ m) (v : V) :
    m.insert k v = m ++ [(k, v)] := by
  unfold insert
  congr 1
  rw [List.filter_eq_self]
  rintro ⟨a, b⟩ hab
  simp only [ne_eq, decide_not, Bool.not_eq_eq_eq_not, Bool.not_true, decide_eq_false_iff_not]
  rintro rfl
  exact h b hab

theorem ofList_foldl : ∀ (l m : List (K × V)), ((m ++ l).map (·.1)).Nodup →
    l.foldl (fun m e => HMap.insert m e.1 e.2) m = m ++ l
  | [], m, _ => by simp
  | e :: l, m, h => by
    rw [List.foldl_cons, insert_of_fresh, ofList_foldl l]
    · simp
    · simpa using h
    · intro v hv
      rw [List.map_append, List.nodup_append] at h
      exact h.2.2 e.1 (List.mem_map.mpr ⟨_, hv, rfl⟩) e.1 (by simp) rfl

/-- A list with distinct keys is the map collected from it. -/
theorem ofList_eq {l : List (K × V)} (h : Distinct l) : ofList l = l := by
  have := ofList_foldl l [] h
  simpa [ofList] using this

theorem perm_filter_key {m : HMap K V} (hm : m.Distinct) {k : K} {v : V} (h : m.get k = some v) :
    m.Perm ((m.filter fun e => e.1 ≠ k) ++ [(k, v)]) := by
  have h1 : (HMap.insert m k v).Distinct := distinct_insert hm k v
  refine perm_of_get hm h1 (fun k' => ?_)
  refine Eq.trans ?_ (get_insert hm k v k').symm
  by_cases hk : k' = k
  · rw [if_pos hk, hk, h]
  · rw [if_neg hk]

theorem flatten_push {m : HMap K (List V)} (hm : m.Distinct) (e : K × V) :
    ((m.push e).map (·.2)).flatten.Perm ((m.map (·.2)).flatten ++ [e.2]) := by
  unfold HMap.push
  cases hg : m.get e.1 with
  | none =>
    simp only
    rw [insert_of_fresh (get_eq_none.mp hg)]
    simp
  | some vs =>
    simp only
    have hp := ((perm_filter_key hm hg).map (·.2)).flatten
    refine List.Perm.trans ?_ (hp.symm.append_right _)
    simp [insert]

theorem distinct_push {m : HMap K (List V)} (hm : m.Distinct) (e : K × V) : (m.push e).Distinct := by
  unfold HMap.push
  cases m.get e.1 <;> exact distinct_insert hm _ _

theorem flatten_foldl : ∀ (l : List (K × V)) (m : HMap K (List V)), m.Distinct →
    ((l.foldl HMap.push m).map (·.2)).flatten.Perm ((m.map (·.2)).flatten ++ l.map (·.2))
  | [], m, _ => by simp
  | e :: l, m, hm => by
    rw [List.foldl_cons]
    refine (flatten_foldl l (m.push e) (distinct_push hm e)).trans ?_
    refine ((flatten_push hm e).append_right _).trans ?_
    simp

/-- No value is lost or invented by grouping. -/
theorem flatten_fromMultiIter (l : List (K × V)) :
    ((fromMultiIter l).map (·.2)).flatten.Perm (l.map (·.2)) := by
  have := flatten_foldl l [] List.nodup_nil
  simpa [fromMultiIter] using this

theorem valuesOf_perm {l l' : List (K × V)} (h : l.Perm l') (k : K) :
    (valuesOf l k).Perm (valuesOf l' k) := (h.filter _).map _

end HMap
end MdRecover
