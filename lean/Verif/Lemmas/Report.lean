import Verif.Model.Report
import Verif.Spec.Report
import Verif.Lemmas.Utf8

namespace MdRecover
namespace Debug
open MdSpec

/-- The text with every line after the first indented by `4 * k` spaces. -/
def ind (k : Nat) (t : Bytes) : Bytes :=
  t.flatMap fun c => if c = 10 then 10 :: List.replicate (4 * k) 32 else [c]

theorem ind_append (k : Nat) (t u : Bytes) : ind k (t ++ u) = ind k t ++ ind k u :=
  List.flatMap_append

theorem ind_nil (k : Nat) : ind k [] = [] := rfl

theorem ind_free {k : Nat} {t : Bytes} (h : ∀ c ∈ t, c ≠ 10) : ind k t = t := by
  induction t with
  | nil => rfl
  | cons c t ih =>
    have : ind k (c :: t) = (if c = 10 then 10 :: List.replicate (4 * k) 32 else [c]) ++ ind k t := rfl
    rw [this, if_neg (h c (by simp)), ih fun d hd => h d (by simp [hd])]
    rfl

theorem ind_ind (j k : Nat) (t : Bytes) : ind j (ind k t) = ind (j + k) t := by
  induction t with
  | nil => rfl
  | cons c t ih =>
    have h1 (i) : ind i (c :: t) = (if c = 10 then 10 :: List.replicate (4 * i) 32 else [c]) ++ ind i t := rfl
    rw [h1, h1, ind_append, ih]
    congr 1
    split
    · have : (10 : UInt8) :: List.replicate (4 * k) 32 = [10] ++ List.replicate (4 * k) 32 := rfl
      rw [this, ind_append, ind_free (t := List.replicate (4 * k) 32)
        (fun c hc => by rw [List.eq_of_mem_replicate hc]; decide)]
      have : ind j [10] = 10 :: List.replicate (4 * j) 32 := by simp [ind]
      rw [this, List.cons_append, List.replicate_append_replicate, ← Nat.mul_add]
    · rw [ind_free]
      intro d hd
      rw [List.mem_singleton.1 hd]; assumption

theorem ind_zero (t : Bytes) : ind 0 t = t := by
  induction t with
  | nil => rfl
  | cons c t ih =>
    have h1 (i) : ind i (c :: t) = (if c = 10 then 10 :: List.replicate (4 * i) 32 else [c]) ++ ind i t := rfl
    rw [h1, ih]
    split
    · subst_vars; rfl
    · rfl

theorem pad_line (b : Bool) (t : Bytes) :
    pad b (t ++ [10]) = (if b then ascii "    " else []) ++ ind 1 t ++ [10] := by
  induction t generalizing b with
  | nil => cases b <;> rfl
  | cons c t ih =>
    have h1 : ind 1 (c :: t) = (if c = 10 then 10 :: List.replicate (4 * 1) 32 else [c]) ++ ind 1 t := rfl
    rw [List.cons_append, pad, ih, h1]
    by_cases hc : c = 10
    · subst hc
      simp [ascii]
    · simp [hc]

/-- An entry of a list at depth `k`. -/
theorem ind_entries_cons (k : Nat) (t : Bytes) (l : List Bytes) :
    ind k (entries (t :: l)) = ascii "    " ++ ind (k + 1) t ++ ascii "," ++ ind k [10] ++ ind k (entries l) := by
  have h : ascii ",\n" = ascii "," ++ [10] := by simp [ascii]
  have : entries (t :: l) = pad true (t ++ ascii ",\n") ++ entries l := rfl
  rw [this, ind_append, h, ← List.append_assoc, pad_line, ind_append, ind_append]
  congr 1
  rw [if_pos rfl, ind_ind, ind_free (t := ascii "    ") (by simp [ascii]), ind_append,
    ind_free (t := ascii ",") (by simp [ascii])]
  simp only [List.append_assoc]

theorem ind_entries_nil (k : Nat) : ind k (entries []) = [] := rfl

/-- What may follow a value. -/
def Stop (r : Bytes) : Prop := ∃ c t, r = c :: t ∧ (c = 44 ∨ c = 58 ∨ c = 10)

/-- The value can be read off the beginning of a text, at any depth. -/
def Unamb {α : Type} (P : α → Bytes) : Prop :=
  ∀ k a b r s, Stop r → Stop s → ind k (P a) ++ r = ind k (P b) ++ s → a = b ∧ r = s

theorem split_at_stop {S : UInt8 → Prop} {x y r s : Bytes} (hx : ∀ c ∈ x, ¬ S c) (hy : ∀ c ∈ y, ¬ S c)
    (hr : ∃ c t, r = c :: t ∧ S c) (hs : ∃ c t, s = c :: t ∧ S c) (h : x ++ r = y ++ s) :
    x = y ∧ r = s := by
  induction x generalizing y with
  | nil =>
    cases y with
    | nil => exact ⟨rfl, h⟩
    | cons d y =>
      obtain ⟨c, t, rfl, hc⟩ := hr
      rw [List.nil_append, List.cons_append, List.cons_eq_cons] at h
      exact absurd hc (h.1 ▸ hy d (by simp))
  | cons d x ih =>
    cases y with
    | nil =>
      obtain ⟨c, t, rfl, hc⟩ := hs
      rw [List.nil_append, List.cons_append, List.cons_eq_cons] at h
      exact absurd hc (h.1 ▸ hx d (by simp))
    | cons e y =>
      rw [List.cons_append, List.cons_append, List.cons_eq_cons] at h
      obtain ⟨h1, h2⟩ := ih (fun c hc => hx c (by simp [hc])) (fun c hc => hy c (by simp [hc])) h.2
      exact ⟨by rw [h.1, h1], h2⟩

theorem Unamb.atom {α : Type} {P : α → Bytes} (hfree : ∀ a, ∀ c ∈ P a, ¬ (c = 44 ∨ c = 58 ∨ c = 10))
    (hinj : ∀ a b, P a = P b → a = b) : Unamb P := by
  intro k a b r s hr hs h
  have hn (a) : ind k (P a) = P a := ind_free fun c hc h10 => hfree a c hc (.inr (.inr h10))
  rw [hn, hn] at h
  obtain ⟨h1, h2⟩ := split_at_stop (S := fun c => c = 44 ∨ c = 58 ∨ c = 10) (hfree a) (hfree b) hr hs h
  exact ⟨hinj _ _ h1, h2⟩

theorem Unamb.comp {α β : Type} {P : α → Bytes} (h : Unamb P) {f : β → α} (hf : ∀ a b, f a = f b → a = b) :
    Unamb fun b => P (f b) := by
  intro k a b r s hr hs e
  obtain ⟨h1, h2⟩ := h k _ _ r s hr hs e
  exact ⟨hf _ _ h1, h2⟩

theorem stop_comma (t : Bytes) : Stop (ascii "," ++ t) := ⟨44, t, by simp [ascii], .inl rfl⟩
theorem stop_colon (t : Bytes) : Stop (ascii ": " ++ t) := ⟨58, 32 :: t, by simp [ascii], .inr (.inl rfl)⟩

/-- An entry of a list is read. -/
theorem entry_unamb {α : Type} {P : α → Bytes} (hP : Unamb P) {k : Nat} {a b : α} {l l' : List Bytes}
    {r s : Bytes} (h : ind k (entries (P a :: l)) ++ r = ind k (entries (P b :: l')) ++ s) :
    a = b ∧ ind k (entries l) ++ r = ind k (entries l') ++ s := by
  rw [ind_entries_cons, ind_entries_cons] at h
  simp only [List.append_assoc, List.append_cancel_left_eq] at h
  obtain ⟨h1, h2⟩ := hP _ _ _ _ _ (stop_comma _) (stop_comma _) h
  refine ⟨h1, ?_⟩
  simpa only [List.append_assoc, List.append_cancel_left_eq] using h2

/-- A named field is read. -/
theorem field_unamb {α : Type} {P : α → Bytes} (hP : Unamb P) {n : Bytes} {k : Nat} {a b : α}
    {l l' : List Bytes} {r s : Bytes}
    (h : ind k (entries ((n ++ ascii ": " ++ P a) :: l)) ++ r =
      ind k (entries ((n ++ ascii ": " ++ P b) :: l')) ++ s) :
    a = b ∧ ind k (entries l) ++ r = ind k (entries l') ++ s := by
  refine entry_unamb (P := fun a => n ++ ascii ": " ++ P a) ?_ h
  intro k a b r s hr hs h
  simp only [ind_append, List.append_assoc, List.append_cancel_left_eq] at h
  exact hP _ _ _ _ _ hr hs h

/-- A list of entries is read up to its closing bracket. -/
theorem entries_unamb {α : Type} {P : α → Bytes} (hP : Unamb P) {k : Nat} {l l' : List α} {c : UInt8}
    (hc : c ≠ 32) {r s : Bytes}
    (h : ind k (entries (l.map P)) ++ c :: r = ind k (entries (l'.map P)) ++ c :: s) : l = l' ∧ r = s := by
  induction l generalizing l' with
  | nil =>
    cases l' with
    | nil => exact ⟨rfl, by simpa [ind_entries_nil] using h⟩
    | cons b l' =>
      rw [List.map_nil, ind_entries_nil, List.map_cons, ind_entries_cons] at h
      exact absurd (List.cons_eq_cons.1 h).1 hc
  | cons a l ih =>
    cases l' with
    | nil =>
      rw [List.map_nil, ind_entries_nil, List.map_cons, ind_entries_cons] at h
      exact absurd (List.cons_eq_cons.1 h).1.symm hc
    | cons b l' =>
      obtain ⟨h1, h2⟩ := entry_unamb hP h
      obtain ⟨h3, h4⟩ := ih h2
      exact ⟨by rw [h1, h3], h4⟩

theorem ind_bracket {k : Nat} {c : UInt8} (hc : c ≠ 10) : ind k [c] = [c] :=
  ind_free fun d hd => by rw [List.mem_singleton.1 hd]; exact hc

theorem bracket_unamb {α : Type} {P : α → Bytes} (hP : Unamb P) {o c : UInt8} (hc : c ≠ 32) (hc' : c ≠ 10)
    {k : Nat} {l l' : List α} {r s : Bytes}
    (h : ind k ([o] ++ opened (l.map P) ++ entries (l.map P) ++ [c]) ++ r =
      ind k ([o] ++ opened (l'.map P) ++ entries (l'.map P) ++ [c]) ++ s) : l = l' ∧ r = s := by
  simp only [ind_append, ind_bracket hc', List.append_assoc, List.append_cancel_left_eq] at h
  cases l with
  | nil =>
    cases l' with
    | nil => exact ⟨rfl, (List.cons_eq_cons.1 (List.append_cancel_left (List.append_cancel_left h))).2⟩
    | cons b l' =>
      have h1 : opened ((b :: l').map P) = [10] := by simp [opened, ascii]
      rw [h1] at h
      exact absurd (List.cons_eq_cons.1 h).1 hc'
  | cons a l =>
    have h1 : opened ((a :: l).map P) = [10] := by simp [opened, ascii]
    cases l' with
    | nil =>
      rw [h1] at h
      exact absurd (List.cons_eq_cons.1 h).1.symm hc'
    | cons b l' =>
      have h2 : opened ((b :: l').map P) = [10] := by simp [opened, ascii]
      rw [h1, h2] at h
      exact entries_unamb hP hc (List.append_cancel_left h)

theorem list_unamb {α : Type} {P : α → Bytes} (hP : Unamb P) : Unamb fun l : List α => list (l.map P) := by
  intro k l l' r s _ _ h
  have e1 : ascii "[" = [91] := by simp [ascii]
  have e2 : ascii "]" = [93] := by simp [ascii]
  simp only [list, e1, e2] at h
  exact bracket_unamb hP (by decide) (by decide) h

theorem set_unamb {α : Type} {P : α → Bytes} (hP : Unamb P) : Unamb fun l : List α => set (l.map P) := by
  intro k l l' r s _ _ h
  have e1 : ascii "{" = [123] := by simp [ascii]
  have e2 : ascii "}" = [125] := by simp [ascii]
  simp only [set, e1, e2] at h
  exact bracket_unamb hP (by decide) (by decide) h

theorem map_unamb {α β : Type} {P : α → Bytes} {Q : β → Bytes} (hP : Unamb P) (hQ : Unamb Q) :
    Unamb fun l : List (α × β) => map (l.map fun e => (P e.1, Q e.2)) := by
  have h1 : Unamb fun e : α × β => P e.1 ++ ascii ": " ++ Q e.2 := by
    intro k a b r s hr hs h
    simp only [ind_append, ind_free (t := ascii ": ") (k := k) (by simp [ascii]), List.append_assoc] at h
    obtain ⟨ha, h2⟩ := hP _ _ _ _ _ (stop_colon _) (stop_colon _) h
    obtain ⟨hb, h3⟩ := hQ _ _ _ _ _ hr hs (List.append_cancel_left h2)
    exact ⟨Prod.ext ha hb, h3⟩
  have h2 := set_unamb h1
  intro k l l' r s hr hs h
  refine h2 k l l' r s hr hs ?_
  simpa only [map, List.map_map, Function.comp_def] using h

theorem tuple1_unamb {α : Type} {P : α → Bytes} (hP : Unamb P) (name : String) :
    Unamb fun a => tuple1 name (P a) := by
  intro k a b r s _ _ h
  simp only [tuple1, ind_append, List.append_assoc, List.append_cancel_left_eq] at h
  obtain ⟨h1, h2⟩ := entry_unamb hP h
  rw [ind_entries_nil, List.nil_append] at h2
  exact ⟨h1, List.append_cancel_left h2⟩

theorem struct_fields {name : String} {f g : List (String × Bytes)} {k : Nat} {r s : Bytes}
    (h : ind k (struct name f) ++ r = ind k (struct name g) ++ s) :
    ind k (entries (f.map fun f => ascii f.1 ++ ascii ": " ++ f.2)) ++ (ascii "}" ++ r) =
      ind k (entries (g.map fun f => ascii f.1 ++ ascii ": " ++ f.2)) ++ (ascii "}" ++ s) := by
  have e : ind k (ascii "}") = ascii "}" := ind_free (by simp [ascii])
  simpa only [struct, ind_append, List.append_assoc, List.append_cancel_left_eq, e] using h

theorem fields_end {k : Nat} {r s : Bytes}
    (h : ind k (entries []) ++ (ascii "}" ++ r) = ind k (entries []) ++ (ascii "}" ++ s)) : r = s :=
  List.append_cancel_left (List.append_cancel_left h)

theorem ind_head {k : Nat} {t u : Bytes} {r s : Bytes} {c d : UInt8} (hc : c ≠ 10) (hd : d ≠ 10) (hcd : c ≠ d)
    (h : ind k (c :: t) ++ r = ind k (d :: u) ++ s) : False := by
  have h1 (c : UInt8) (t) : ind k (c :: t) =
    (if c = 10 then 10 :: List.replicate (4 * k) 32 else [c]) ++ ind k t := rfl
  rw [h1, h1, if_neg hc, if_neg hd] at h
  exact hcd (List.cons_eq_cons.1 h).1

theorem option_unamb {α : Type} {P : α → Bytes} (hP : Unamb P) : Unamb (option P) := by
  intro k a b r s hr hs h
  have e1 : ascii "None" = 78 :: ascii "one" := by simp [ascii]
  have e2 : ascii "Some" = 83 :: ascii "ome" := by simp [ascii]
  match a, b with
  | none, none => exact ⟨rfl, List.append_cancel_left h⟩
  | none, some b =>
    simp only [option, tuple1, e1, e2, List.cons_append] at h
    exact (ind_head (by decide) (by decide) (by decide) h).elim
  | some a, none =>
    simp only [option, tuple1, e1, e2, List.cons_append] at h
    exact (ind_head (by decide) (by decide) (by decide) h).elim
  | some a, some b =>
    obtain ⟨h1, h2⟩ := tuple1_unamb hP "Some" k a b r s hr hs h
    exact ⟨by rw [h1], h2⟩

end Debug
end MdRecover
