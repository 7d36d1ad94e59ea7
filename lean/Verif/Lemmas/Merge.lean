import Verif.Model.Array
import Verif.Spec.Array
import Mathlib.Data.List.Induction

namespace MdRecover
open MdSpec
namespace MdArray

/-- One step of merging a column; outer `none`: conflict, inner `none`: no value yet. -/
def colStep (s : Option (Option Role)) (r : Option Role) : Option (Option Role) :=
  match s, r with
  | none, _ => none
  | s, none => s
  | some none, some r => some (some r)
  | some (some l), some r => (mergeRole l r).map some

theorem colStep_none (s : Option (Option Role)) : colStep s none = s := by
  rcases s with _ | _ | _ <;> rfl

theorem mergeTables_spec : ∀ (a r t : List Role),
    mergeTables a r = some t ↔ ∀ i : Nat, colStep (some (a[i]?)) (r[i]?) = some (t[i]?)
  | [], r, t => by
    simp only [mergeTables, Option.some.injEq, List.getElem?_nil]
    constructor
    · rintro rfl i
      cases r[i]? <;> rfl
    · intro h
      apply List.ext_getElem?
      intro i
      have := h i
      cases hr : r[i]? <;> rw [hr] at this <;> simpa [colStep] using this
  | l :: ls, [], t => by
    simp only [mergeTables, Option.some.injEq, List.getElem?_nil, colStep_none]
    constructor
    · rintro rfl i; rfl
    · intro h
      exact List.ext_getElem? h
  | l :: ls, r :: rs, t => by
    have ih := mergeTables_spec ls rs
    constructor
    · intro h
      rw [mergeTables] at h
      cases hm : mergeRole l r with
      | none => rw [hm] at h; simp at h
      | some x =>
        cases ht : mergeTables ls rs with
        | none => rw [hm, ht] at h; simp at h
        | some xs =>
          rw [hm, ht] at h
          simp only [Option.some.injEq] at h
          subst h
          intro i
          cases i with
          | zero => simp [colStep, hm]
          | succ i => simpa using (ih xs).mp ht i
    · intro h
      have h0 := h 0
      simp only [List.getElem?_cons_zero, colStep] at h0
      cases hm : mergeRole l r with
      | none => rw [hm] at h0; simp at h0
      | some x =>
        rw [hm] at h0
        simp only [Option.map_some, Option.some.injEq] at h0
        cases t with
        | nil => simp at h0
        | cons y ys =>
          simp only [List.getElem?_cons_zero, Option.some.injEq] at h0
          subst h0
          have ht := (ih ys).mpr (fun i => by simpa using h (i + 1))
          rw [mergeTables, hm, ht]

theorem colStep_some_none_iff (a r : List Role) :
    mergeTables a r = none ↔ ∃ i : Nat, colStep (some (a[i]?)) (r[i]?) = none := by
  induction a generalizing r with
  | nil =>
    simp only [mergeTables, List.getElem?_nil, reduceCtorEq, false_iff, not_exists]
    intro i
    cases r[i]? <;> simp [colStep]
  | cons l ls ih =>
    cases r with
    | nil =>
      simp [mergeTables, colStep_none]
    | cons r rs =>
      rw [mergeTables]
      cases hm : mergeRole l r with
      | none =>
        simp only [true_iff]
        exact ⟨0, by simp [colStep, hm]⟩
      | some x =>
        cases ht : mergeTables ls rs with
        | none =>
          simp only [true_iff]
          obtain ⟨i, hi⟩ := (ih rs).mp ht
          exact ⟨i + 1, by simpa using hi⟩
        | some xs =>
          simp only [reduceCtorEq, false_iff, not_exists]
          intro i hi
          cases i with
          | zero => simp [colStep, hm] at hi
          | succ i =>
            have := (ih rs).mpr ⟨i, by simpa using hi⟩
            rw [ht] at this; cases this

theorem foldl_mergeOptions_none (l : List (Option (List Role))) :
    l.foldl mergeOptions none = none := by
  induction l with
  | nil => rfl
  | cons x l ih => simpa [mergeOptions] using ih

theorem foldl_mergeOptions_mem_none (l : List (Option (List Role))) (a : Option (List Role))
    (h : none ∈ l) : l.foldl mergeOptions a = none := by
  induction l generalizing a with
  | nil => simp at h
  | cons x l ih =>
    rw [List.foldl_cons]
    rcases List.mem_cons.mp h with h | h
    · subst h
      have : mergeOptions a none = none := by cases a <;> rfl
      rw [this, foldl_mergeOptions_none]
    · exact ih _ h

theorem colStep_foldl_none (l : List (Option Role)) : l.foldl colStep none = none := by
  induction l with
  | nil => rfl
  | cons x l ih => simpa [colStep] using ih

theorem foldl_merge (ts : List (List Role)) : ∀ (a t : List Role),
    ((ts.map some).foldl mergeOptions (some a) = some t ↔
      ∀ i : Nat, (ts.map fun u => u[i]?).foldl colStep (some a[i]?) = some t[i]?) := by
  induction ts with
  | nil =>
    intro a t
    simp only [List.map_nil, List.foldl_nil, Option.some.injEq]
    constructor
    · rintro rfl i; rfl
    · exact List.ext_getElem?
  | cons r ts ih =>
    intro a t
    rw [List.map_cons, List.foldl_cons]
    have hmo : mergeOptions (some a) (some r) = mergeTables a r := rfl
    rw [hmo]
    cases hm : mergeTables a r with
    | none =>
      rw [foldl_mergeOptions_none]
      simp only [reduceCtorEq, false_iff, not_forall]
      obtain ⟨i, hi⟩ := (colStep_some_none_iff a r).mp hm
      refine ⟨i, ?_⟩
      rw [List.map_cons, List.foldl_cons, hi, colStep_foldl_none]
      simp
    | some a' =>
      rw [ih a' t]
      have hs := (mergeTables_spec a r a').mp hm
      constructor
      · intro h i
        rw [List.map_cons, List.foldl_cons, hs i]
        exact h i
      · intro h i
        have := h i
        rw [List.map_cons, List.foldl_cons, hs i] at this
        exact this

theorem foldl_colStep_filterMap (l : List (Option Role)) (s : Option (Option Role)) :
    l.foldl colStep s = (l.filterMap id).foldl (fun s r => colStep s (some r)) s := by
  induction l generalizing s with
  | nil => rfl
  | cons x l ih =>
    cases x with
    | none => rw [List.foldl_cons, colStep_none, ih]; rfl
    | some r => rw [List.foldl_cons, ih]; rfl

/-- The state of a column after merging it. -/
def colState (c : List Role) : Option (Option Role) :=
  c.foldl (fun s r => colStep s (some r)) (some none)

theorem isInvalid_eq (r : Role) : r.isInvalid = invalidRole r := rfl

theorem takeWhile_concat_of_all {p : Role → Bool} {c : List Role} (h : ∀ x ∈ c, p x) (r : Role) :
    (c ++ [r]).takeWhile p = c ++ if p r then [r] else [] := by
  rw [List.takeWhile_append_of_pos h]
  by_cases hp : p r <;> simp [hp]

theorem takeWhile_concat_of_ex {p : Role → Bool} {c : List Role} (h : ∃ x ∈ c, ¬ p x) (r : Role) :
    (c ++ [r]).takeWhile p = c.takeWhile p := by
  induction c with
  | nil => simp at h
  | cons a c ih =>
    rw [List.cons_append, List.takeWhile_cons, List.takeWhile_cons]
    by_cases ha : p a
    · rw [if_pos ha, if_pos ha, ih]
      obtain ⟨x, hx, hx'⟩ := h
      rcases List.mem_cons.mp hx with rfl | hx
      · exact absurd ha hx'
      · exact ⟨x, hx, hx'⟩
    · rw [if_neg ha, if_neg ha]

theorem opinion_iff (r : Role) :
    opinion r = true ↔ r.isSpare = false ∧ r.isFaulty = false ∧ invalidRole r = false := by
  simp only [opinion, Role.isSpare, Role.isFaulty, Role.spare, Role.faulty]
  by_cases h1 : r.val = 65535 <;> by_cases h2 : r.val = 65534 <;> cases invalidRole r <;>
    simp [h1, h2]

theorem mergeRole_invalid {l r : Role} (hl : invalidRole l) :
    mergeRole l r = some (if invalidRole r then r else l) := by
  have h := hl
  simp only [invalidRole, Bool.and_eq_true, decide_eq_true_eq] at h
  have h1 : l.isSpare = false := by
    rw [Role.isSpare, decide_eq_false_iff_not, Role.spare]; omega
  have h2 : l.isFaulty = false := by
    rw [Role.isFaulty, decide_eq_false_iff_not, Role.faulty]; omega
  unfold mergeRole
  rw [h1, h2, isInvalid_eq, isInvalid_eq, hl]
  cases invalidRole r <;> simp

theorem mergeRole_opinion {l r : Role} (hl : opinion l) :
    mergeRole l r = if invalidRole r then some r else if opinion r ∧ r ≠ l then none else some l := by
  obtain ⟨h1, h2, h3⟩ := (opinion_iff l).mp hl
  unfold mergeRole
  rw [h1, h2, isInvalid_eq, isInvalid_eq, h3]
  cases hr : invalidRole r
  · simp only [Bool.or_false, Bool.false_eq_true, if_false]
    by_cases ho : opinion r
    · obtain ⟨k1, k2, _⟩ := (opinion_iff r).mp ho
      rw [k1, k2]
      by_cases he : r = l
      · simp [he]
      · have he' : ¬ l = r := fun h => he h.symm
        simp [ho, he, he']
    · have : r.isSpare = true ∨ r.isFaulty = true := by
        rw [opinion_iff, hr] at ho
        cases h1 : r.isSpare <;> cases h2 : r.isFaulty <;> simp [h1, h2] at ho ⊢
      have e : opinion r = false := by simpa using ho
      rw [e]
      rcases this with h | h <;> rw [h] <;> simp
  · simp

theorem mergeRole_other {l r : Role} (hl : opinion l = false) (hi : invalidRole l = false) :
    mergeRole l r = some r := by
  have : l.isSpare = true ∨ l.isFaulty = true := by
    cases h1 : l.isSpare <;> cases h2 : l.isFaulty <;> simp
    rw [(opinion_iff l).mpr ⟨h1, h2, hi⟩] at hl; cases hl
  unfold mergeRole
  rcases this with h | h <;> rw [h] <;> simp

/-- The merge of a column is a conflict or the merged value. -/
theorem colState_spec (c : List Role) :
    (Conflict c → colState c = none) ∧ (¬ Conflict c → colState c = some (mergedValue c)) := by
  induction c using List.reverseRecOn with
  | nil =>
    refine ⟨fun ⟨a, ha, _⟩ => by simp at ha, fun _ => rfl⟩
  | append_singleton c r ih =>
    have hstep : colState (c ++ [r]) = colStep (colState c) (some r) := by
      unfold colState; rw [List.foldl_append]; rfl
    rw [hstep]
    by_cases hinv : ∃ x ∈ c, invalidRole x
    · -- an invalid value came before
      have htw : (c ++ [r]).takeWhile (fun r => !invalidRole r) =
          c.takeWhile (fun r => !invalidRole r) :=
        takeWhile_concat_of_ex (by simpa using hinv) r
      have hconf : Conflict (c ++ [r]) ↔ Conflict c := by unfold Conflict; rw [htw]
      rw [hconf]
      refine ⟨fun h => by rw [ih.1 h]; rfl, fun h => ?_⟩
      rw [ih.2 h]
      obtain ⟨v, hv⟩ : ∃ v, (c.filter invalidRole).getLast? = some v := by
        obtain ⟨x, hx, hx'⟩ := hinv
        have : c.filter invalidRole ≠ [] := List.ne_nil_of_mem (List.mem_filter.mpr ⟨hx, hx'⟩)
        exact ⟨_, List.getLast?_eq_some_getLast this⟩
      have hvi : invalidRole v := (List.mem_filter.mp (List.mem_of_getLast? hv)).2
      have hm : mergedValue c = some v := by unfold mergedValue; rw [hv]; rfl
      rw [hm, colStep, mergeRole_invalid hvi]
      unfold mergedValue
      rw [List.filter_append]
      by_cases hr : invalidRole r
      · simp [hr]
      · simp [hr, hv]
    · have hninv : ∀ x ∈ c, (!invalidRole x) = true := by
        intro x hx
        by_contra h
        exact hinv ⟨x, hx, by simpa using h⟩
      have hfil : c.filter invalidRole = [] := by
        rw [List.filter_eq_nil_iff]
        intro x hx h
        exact hinv ⟨x, hx, h⟩
      have htw0 : c.takeWhile (fun r => !invalidRole r) = c := by
        have := List.takeWhile_append_of_pos (l₂ := []) hninv
        simpa using this
      have htw := takeWhile_concat_of_all (p := fun r => !invalidRole r) hninv r
      have hconf0 : Conflict c ↔ ∃ a ∈ c, ∃ b ∈ c, opinion a ∧ opinion b ∧ a ≠ b := by
        unfold Conflict; rw [htw0]
      by_cases hr : invalidRole r
      · have htw' : (c ++ [r]).takeWhile (fun r => !invalidRole r) = c := by
          rw [htw]; simp [hr]
        have hconf : Conflict (c ++ [r]) ↔ Conflict c := by
          rw [hconf0]; unfold Conflict; rw [htw']
        rw [hconf]
        refine ⟨fun h => by rw [ih.1 h]; rfl, fun h => ?_⟩
        rw [ih.2 h]
        have hm' : mergedValue (c ++ [r]) = some r := by
          unfold mergedValue; rw [List.filter_append]; simp [hr]
        rw [hm']
        cases hmv : mergedValue c with
        | none => rfl
        | some l =>
          rw [colStep]
          by_cases hl : opinion l
          · rw [mergeRole_opinion hl]; simp [hr]
          · have hli : invalidRole l = false ∨ invalidRole l = true := by
              cases invalidRole l <;> simp
            rcases hli with hli | hli
            · rw [mergeRole_other (by simpa using hl) hli]; rfl
            · rw [mergeRole_invalid hli]; simp [hr]
      · have htw' : (c ++ [r]).takeWhile (fun r => !invalidRole r) = c ++ [r] := by
          rw [htw]; simp [hr]
        have hconf : Conflict (c ++ [r]) ↔
            ∃ a ∈ c ++ [r], ∃ b ∈ c ++ [r], opinion a ∧ opinion b ∧ a ≠ b := by
          unfold Conflict; rw [htw']
        have hmv' : mergedValue (c ++ [r]) =
            ((c.filter opinion ++ [r].filter opinion).head?).or (some r) := by
          unfold mergedValue
          rw [List.filter_append, hfil, List.filter_append]
          simp [hr]
        by_cases hop : ∃ o ∈ c, opinion o
        · obtain ⟨o, ho⟩ : ∃ o, (c.filter opinion).head? = some o := by
            obtain ⟨x, hx, hx'⟩ := hop
            have : c.filter opinion ≠ [] := List.ne_nil_of_mem (List.mem_filter.mpr ⟨hx, hx'⟩)
            exact ⟨_, List.head?_eq_some_head this⟩
          have homem := List.mem_filter.mp (List.mem_of_head? ho)
          have hmv : mergedValue c = some o := by
            unfold mergedValue; rw [hfil, ho]; rfl
          have hmv2 : mergedValue (c ++ [r]) = some o := by
            rw [hmv', List.head?_append, ho]; rfl
          constructor
          · intro h
            by_cases hc : Conflict c
            · rw [ih.1 hc]; rfl
            · rw [ih.2 hc, hmv, colStep, mergeRole_opinion homem.2]
              have hro : opinion r ∧ r ≠ o := by
                rw [hconf0] at hc
                rw [hconf] at h
                obtain ⟨a, ha, b, hb, hoa, hob, hab⟩ := h
                have key : ∀ x ∈ c, opinion x → x = o := by
                  intro x hx hxo
                  by_contra hne
                  exact hc ⟨x, hx, o, homem.1, hxo, homem.2, hne⟩
                rw [List.mem_append, List.mem_singleton] at ha hb
                rcases ha with ha | rfl
                · rcases hb with hb | rfl
                  · exact absurd ⟨a, ha, b, hb, hoa, hob, hab⟩ hc
                  · exact ⟨hob, fun e => hab (by rw [key a ha hoa, e])⟩
                · rcases hb with hb | rfl
                  · exact ⟨hoa, fun e => hab (by rw [key b hb hob, e])⟩
                  · exact absurd rfl hab
              simp [hr, hro]
          · intro h
            have hc : ¬ Conflict c := by
              intro hc
              apply h
              rw [hconf0] at hc
              rw [hconf]
              obtain ⟨a, ha, b, hb, rest⟩ := hc
              exact ⟨a, by simp [ha], b, by simp [hb], rest⟩
            rw [ih.2 hc, hmv, hmv2, colStep, mergeRole_opinion homem.2]
            have hro : ¬ (opinion r ∧ r ≠ o) := by
              rintro ⟨h1, h2⟩
              apply h
              rw [hconf]
              exact ⟨r, by simp, o, by simp [homem.1], h1, homem.2, h2⟩
            rw [if_neg hr, if_neg hro]; rfl
        · have hopn : c.filter opinion = [] := by
            rw [List.filter_eq_nil_iff]
            intro x hx h
            exact hop ⟨x, hx, h⟩
          have hnc : ¬ Conflict c := by
            rw [hconf0]
            rintro ⟨a, ha, _, _, hoa, _⟩
            exact hop ⟨a, ha, hoa⟩
          have hnc' : ¬ Conflict (c ++ [r]) := by
            rw [hconf]
            rintro ⟨a, ha, b, hb, hoa, hob, hab⟩
            rw [List.mem_append, List.mem_singleton] at ha hb
            rcases ha with ha | rfl
            · exact hop ⟨a, ha, hoa⟩
            · rcases hb with hb | rfl
              · exact hop ⟨b, hb, hob⟩
              · exact hab rfl
          refine ⟨fun h => absurd h hnc', fun _ => ?_⟩
          have hmv2 : mergedValue (c ++ [r]) = some r := by
            rw [hmv', hopn, List.nil_append]
            cases hr : opinion r <;> simp [hr]
          rw [ih.2 hnc, hmv2]
          have hmv : mergedValue c = c.getLast? := by unfold mergedValue; rw [hfil, hopn]; rfl
          rw [hmv]
          cases hl : c.getLast? with
          | none => rfl
          | some l =>
            have hlm := List.mem_of_getLast? hl
            rw [colStep, mergeRole_other]
            · rfl
            · cases ho : opinion l
              · rfl
              · exact absurd ⟨l, hlm, ho⟩ hop
            · have := hninv l hlm
              simpa using this

/-- The merged role table, exactly. -/
theorem reduce_merge {ts : List (List Role)} (hts : ts ≠ []) (t : List Role) :
    reduceFlatten mergeOptions (ts.map some) = some t ↔
      (∀ i, ¬ Conflict (column ts i)) ∧ ∀ i : Nat, t[i]? = mergedValue (column ts i) := by
  obtain ⟨a, ts, rfl⟩ := List.exists_cons_of_ne_nil hts
  rw [List.map_cons, reduceFlatten, foldl_merge]
  have hcol : ∀ i : Nat, (ts.map fun u => u[i]?).foldl colStep (some a[i]?) =
      colState (column (a :: ts) i) := by
    intro i
    have : colStep (some none) a[i]? = some a[i]? := by cases a[i]? <;> rfl
    rw [← this]
    have h2 : (ts.map fun u => u[i]?).foldl colStep (colStep (some none) a[i]?) =
        ((a :: ts).map fun u => u[i]?).foldl colStep (some none) := rfl
    rw [h2, foldl_colStep_filterMap, List.filterMap_map]
    rfl
  constructor
  · intro h
    have hn : ∀ i, ¬ Conflict (column (a :: ts) i) := by
      intro i hc
      have := h i
      rw [hcol, (colState_spec _).1 hc] at this
      cases this
    refine ⟨hn, fun i => ?_⟩
    have := h i
    rw [hcol, (colState_spec _).2 (hn i)] at this
    exact (Option.some.inj this).symm
  · rintro ⟨hn, ht⟩ i
    rw [hcol, (colState_spec _).2 (hn i), ht i]

theorem reduce_merge_missing {l : List (Option (List Role))} (h : none ∈ l) :
    reduceFlatten mergeOptions l = none := by
  cases l with
  | nil => rfl
  | cons a l =>
    rw [reduceFlatten]
    rcases List.mem_cons.mp h with h | h
    · subst h; exact foldl_mergeOptions_none l
    · exact foldl_mergeOptions_mem_none l a h

end MdArray
end MdRecover
