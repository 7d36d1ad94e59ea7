import Verif.Spec.ReportText
import Verif.Lemmas.ReportValues

namespace MdRecover
namespace Debug
open MdSpec MdSpec.ReportText

theorem toBytes_cons (x : Line) (l : List Line) :
    toBytes (x :: l) = List.replicate (4 * x.1) 32 ++ x.2 ++ [10] ++ toBytes l := rfl

theorem toBytes_append (a b : List Line) : toBytes (a ++ b) = toBytes a ++ toBytes b := List.flatMap_append

theorem toBytes_end {a : List Line} (h : a ≠ []) : ∃ s, toBytes a = s ++ [10] := by
  match a with
  | [x] => exact ⟨_, by rw [toBytes_cons]; show _ ++ [] = _; rw [List.append_nil]⟩
  | x :: y :: a =>
    obtain ⟨s, hs⟩ := toBytes_end (a := y :: a) (by simp)
    exact ⟨_, by rw [toBytes_cons, hs, ← List.append_assoc]⟩

theorem beside_cons (x y : Line) (a b : List Line) : beside (x :: y :: a) b = x :: beside (y :: a) b := by
  rw [beside]
  all_goals simp

theorem toBytes_beside {a b : List Line} {s : Bytes} (ha : a ≠ []) (hb : ∃ t c, b = (0, t) :: c)
    (h : toBytes a = s ++ [10]) : toBytes (beside a b) = s ++ toBytes b := by
  obtain ⟨t, c, rfl⟩ := hb
  match a with
  | [(n, u)] =>
    have h1 : s = List.replicate (4 * n) 32 ++ u := by
      rw [toBytes_cons] at h
      have h : (List.replicate (4 * n) 32 ++ u ++ [10]) ++ [] = s ++ [10] := h
      rw [List.append_nil] at h
      exact (List.append_cancel_right h).symm
    subst h1
    rw [beside, toBytes_cons, toBytes_cons]
    simp
  | x :: y :: a =>
    obtain ⟨s', hs'⟩ := toBytes_end (a := y :: a) (by simp)
    rw [toBytes_cons, hs', ← List.append_assoc] at h
    have h := List.append_cancel_right h
    rw [beside_cons, toBytes_cons, toBytes_beside (a := y :: a) (by simp) ⟨t, c, rfl⟩ hs', ← h]
    simp only [List.append_assoc]

theorem mem_beside {a b : List Line} {x : Line} (h : x ∈ beside a b) :
    (∀ y ∈ a, 10 ∉ y.2) → (∀ y ∈ b, 10 ∉ y.2) → 10 ∉ x.2 := by
  intro ha hb
  match a, b with
  | [], b => exact hb x h
  | [y], [] => exact ha x h
  | [(n, s)], (m, t) :: b =>
    rw [beside] at h
    rcases List.mem_cons.1 h with rfl | h
    · have h1 := ha (n, s) (by simp)
      have h2 := hb (m, t) (by simp)
      simp only [List.mem_append, not_or]
      exact ⟨h1, h2⟩
    · exact hb x (by simp [h])
  | y :: z :: a, b =>
    rw [beside_cons] at h
    rcases List.mem_cons.1 h with rfl | h
    · exact ha _ (by simp)
    · exact mem_beside h (fun w hw => ha w (List.mem_cons_of_mem _ hw)) hb

theorem beside_head {a b : List Line} (ha : ∃ t c, a = (0, t) :: c) (hb : ∃ t c, b = (0, t) :: c) :
    ∃ t c, beside a b = (0, t) :: c := by
  obtain ⟨t, c, rfl⟩ := ha
  obtain ⟨u, e, rfl⟩ := hb
  match c with
  | [] => exact ⟨t ++ u, e, by rw [beside]⟩
  | y :: c => exact ⟨t, beside (y :: c) ((0, u) :: e), beside_cons _ _ _ _⟩

/-- The lines of a text without its last line end. -/
def Rep (l : List Line) (t : Bytes) : Prop :=
  (∃ s c, l = (0, s) :: c) ∧ toBytes l = t ++ [10] ∧ ∀ x ∈ l, 10 ∉ x.2

theorem Rep.ne_nil {l : List Line} {t : Bytes} (h : Rep l t) : l ≠ [] := by
  obtain ⟨⟨s, c, rfl⟩, -⟩ := h
  simp

theorem rep_word {t : Bytes} (h : 10 ∉ t) : Rep (word t) t := by
  refine ⟨⟨t, [], rfl⟩, by simp [word, toBytes], ?_⟩
  intro x hx
  rw [List.mem_singleton.1 hx]
  exact h

theorem Rep.beside {a b : List Line} {s t : Bytes} (ha : Rep a s) (hb : Rep b t) :
    Rep (beside a b) (s ++ t) := by
  refine ⟨beside_head ha.1 hb.1, ?_, fun x hx => mem_beside hx ha.2.2 hb.2.2⟩
  rw [toBytes_beside ha.ne_nil hb.1 ha.2.1, hb.2.1, List.append_assoc]

theorem pad_free {u rest : Bytes} (h : 10 ∉ u) (b : Bool) :
    pad b (u ++ [10] ++ rest) = (if b then ascii "    " else []) ++ u ++ [10] ++ pad true rest := by
  induction u generalizing b with
  | nil => simp [pad]
  | cons c u ih =>
    have hc : c ≠ 10 := fun e => h (by simp [e])
    rw [List.cons_append, List.cons_append, pad, ih (fun e => h (by simp [e]))]
    simp [hc]

theorem pad_toBytes {l : List Line} (h : ∀ x ∈ l, 10 ∉ x.2) : pad true (toBytes l) = toBytes (deeper l) := by
  induction l with
  | nil => rfl
  | cons x l ih =>
    have hx : 10 ∉ List.replicate (4 * x.1) 32 ++ x.2 := by
      rw [List.mem_append, not_or]
      exact ⟨fun e => absurd (List.eq_of_mem_replicate e) (by decide), h x (by simp)⟩
    rw [toBytes_cons, pad_free hx, ih fun y hy => h y (by simp [hy])]
    show _ = toBytes ((x.1 + 1, x.2) :: deeper l)
    rw [toBytes_cons]
    have : ascii "    " ++ List.replicate (4 * x.1) 32 = List.replicate (4 * (x.1 + 1)) 32 := by
      rw [show 4 * (x.1 + 1) = 4 + 4 * x.1 by omega, ← List.replicate_append_replicate]
      congr 1
    simp only [if_true, ← List.append_assoc, this]

theorem entries_cons (t : Bytes) (l : List Bytes) : entries (t :: l) = pad true (t ++ ascii ",\n") ++ entries l :=
  rfl

theorem toBytes_items {items : List (List Line)} {texts : List Bytes} (h : List.Forall₂ Rep items texts) :
    toBytes (items.flatMap fun i => deeper (beside i (word (ascii ",")))) = entries texts ∧
      ∀ x ∈ items.flatMap (fun i => deeper (beside i (word (ascii ",")))), 10 ∉ x.2 := by
  induction h with
  | nil => exact ⟨rfl, by simp⟩
  | cons h _ ih =>
    have hr := h.beside (rep_word (t := ascii ",") (by simp [ascii]))
    refine ⟨?_, ?_⟩
    · rw [List.flatMap_cons, toBytes_append, ih.1, entries_cons, ← pad_toBytes hr.2.2, hr.2.1]
      congr 2
      simp [ascii]
    · intro x hx
      rw [List.flatMap_cons, List.mem_append] at hx
      rcases hx with hx | hx
      · obtain ⟨y, hy, rfl⟩ := List.mem_map.1 hx
        exact hr.2.2 y hy
      · exact ih.2 x hx

theorem rep_bracket {items : List (List Line)} {texts : List Bytes} (h : List.Forall₂ Rep items texts)
    {o c : Bytes} (ho : 10 ∉ o) (hc : 10 ∉ c) :
    Rep (bracket o c items) (o ++ opened texts ++ entries texts ++ c) := by
  by_cases hi : items = []
  · subst hi
    cases h
    have : Rep (word (o ++ c)) (o ++ c) := rep_word (by rw [List.mem_append, not_or]; exact ⟨ho, hc⟩)
    simpa [bracket, opened, entries] using this
  · have ht : texts ≠ [] := by
      rintro rfl
      cases h
      exact hi rfl
    obtain ⟨h1, h2⟩ := toBytes_items h
    have h1' := h1
    rw [bracket, if_neg hi]
    refine ⟨⟨o, _, by rw [word, List.append_assoc]; rfl⟩, ?_, ?_⟩
    · rw [toBytes_append, toBytes_append, h1, (rep_word ho).2.1, (rep_word hc).2.1, opened, if_neg ht]
      simp [ascii]
    · intro x hx
      rw [List.mem_append, List.mem_append] at hx
      rcases hx with (hx | hx) | hx
      · exact (rep_word ho).2.2 x hx
      · exact h2 x hx
      · exact (rep_word hc).2.2 x hx

theorem forall₂_map {α : Type} {f : α → List Line} {g : α → Bytes} {l : List α} (h : ∀ a, Rep (f a) (g a)) :
    List.Forall₂ Rep (l.map f) (l.map g) := by
  induction l with
  | nil => exact .nil
  | cons a l ih => exact .cons (h a) ih

/-- The names used in a report contain no line ends. -/
theorem rep_wrapped {name : String} (hn : 10 ∉ ascii name) {l : List Line} {t : Bytes} (h : Rep l t) :
    Rep (wrapped name l) (tuple1 name t) := by
  have := rep_bracket (o := ascii name ++ ascii "(") (c := ascii ")") (.cons h .nil)
    (by rw [List.mem_append, not_or]; exact ⟨hn, by simp [ascii]⟩) (by simp [ascii])
  rw [wrapped, tuple1]
  have e : ascii "(\n" = ascii "(" ++ ascii "\n" := by simp [ascii]
  rw [e]
  simpa [opened] using this

theorem rep_fields {fields : List (String × List Line)} {texts : List (String × Bytes)}
    (h : List.Forall₂ (fun f g => f.1 = g.1 ∧ 10 ∉ ascii f.1 ∧ Rep f.2 g.2) fields texts) :
    List.Forall₂ Rep (fields.map fun f => beside (word (ascii f.1 ++ ascii ": ")) f.2)
      (texts.map fun f => ascii f.1 ++ ascii ": " ++ f.2) := by
  induction h with
  | nil => exact .nil
  | cons h _ ih =>
    refine .cons ?_ ih
    dsimp only
    rw [← h.1]
    exact (rep_word (by rw [List.mem_append, not_or]; exact ⟨h.2.1, by simp [ascii]⟩)).beside h.2.2

theorem field_ok {n : String} (hn : 10 ∉ ascii n) {l : List Line} {t : Bytes} (h : Rep l t) :
    (n, l).1 = (n, t).1 ∧ 10 ∉ ascii (n, l).1 ∧ Rep (n, l).2 (n, t).2 := ⟨rfl, hn, h⟩

theorem rep_record {name : String} (hn : 10 ∉ ascii name) {fields : List (String × List Line)}
    {texts : List (String × Bytes)} (hne : texts ≠ [])
    (h : List.Forall₂ (fun f g => f.1 = g.1 ∧ 10 ∉ ascii f.1 ∧ Rep f.2 g.2) fields texts) :
    Rep (record name fields) (struct name texts) := by
  have := rep_bracket (o := ascii name ++ ascii " {") (c := ascii "}") (rep_fields h)
    (by rw [List.mem_append, not_or]; exact ⟨hn, by simp [ascii]⟩) (by simp [ascii])
  rw [record, struct]
  have e : ascii " {\n" = ascii " {" ++ ascii "\n" := by simp [ascii]
  rw [e]
  rw [opened, if_neg (by simpa using hne)] at this
  simpa using this

theorem rep_optional {α : Type} {f : α → List Line} {g : α → Bytes} (h : ∀ a, Rep (f a) (g a)) (a : Option α) :
    Rep (optional f a) (option g a) := by
  cases a with
  | none => exact rep_word (by simp [ascii])
  | some a => exact rep_wrapped (by simp [ascii]) (h a)

theorem rep_row {α : Type} {f : α → List Line} {g : α → Bytes} (h : ∀ a, Rep (f a) (g a)) (l : List α) :
    Rep (row (l.map f)) (list (l.map g)) :=
  rep_bracket (forall₂_map h) (by simp [ascii]) (by simp [ascii])

theorem rep_collection {items : List (List Line)} {texts : List Bytes} (h : List.Forall₂ Rep items texts) :
    Rep (collection items) (set texts) :=
  rep_bracket h (by simp [ascii]) (by simp [ascii])

/-! ## Numbers -/

theorem digitChar_digit : ∀ d < 16, UInt8.ofNat (Nat.digitChar d).toNat = digit d := by decide

theorem number_toDigits {b : Nat} (hb : 1 < b) (hb' : b ≤ 16) (n : Nat) :
    (Nat.toDigits b n).map (fun c => UInt8.ofNat c.toNat) = Debug.number b n := by
  have key : ∀ n, 0 < n → (Nat.toDigits b n).map (fun c => UInt8.ofNat c.toNat) =
      (Nat.digits b n).reverse.map digit := by
    intro n
    induction n using Nat.strongRecOn with
    | _ n ih =>
      intro hn
      by_cases hlt : n < b
      · rw [Nat.toDigits_of_lt_base hlt, Nat.digits_of_lt b n (by omega) hlt]
        simp [digitChar_digit n (by omega)]
      · rw [Nat.toDigits_of_base_le hb (by omega), Nat.digits_def' hb hn, List.map_append,
          ih (n / b) (Nat.div_lt_self hn hb) (Nat.div_pos (by omega) (by omega))]
        simp [digitChar_digit (n % b) (by have := Nat.mod_lt n (show b > 0 by omega); omega)]
  by_cases h0 : n = 0
  · subst h0
    simp [Debug.number, ascii]
  · rw [key n (by omega), Debug.number, if_neg h0]

theorem ascii_toString (n : Nat) : ascii (toString n) = decimal n := by
  rw [decimal, ← number_toDigits (by decide) (by decide), ascii, Nat.toString_eq_ofList_toDigits,
    String.toList_ofList]

theorem number_free {b n : Nat} (hb : 1 < b) (hb' : b ≤ 16) : 10 ∉ Debug.number b n := fun h =>
  absurd (mem_number hb hb' h) (by decide)

theorem rep_number (n : Nat) : Rep (ReportText.number n) (decimal n) := by
  rw [ReportText.number, ascii_toString]
  exact rep_word (number_free (by decide) (by decide))

/-! ## Paths and names -/

theorem escape_charText (p : Nat → Bool) {c : Nat} (hc : IsScalar c) : escape p (utf8Of c) = charText p c := by
  unfold escape charText
  rw [codePoint_utf8Of hc, show ascii (String.ofList (Nat.toDigits 16 c)) = Debug.number 16 c by
    rw [← number_toDigits (by decide) (by decide), ascii, String.toList_ofList]]
  simp only [shortEscapes, List.lookup]
  split
  · simp [*, ascii]
  split
  · simp [*, ascii]
  split
  · simp [*, ascii]
  split
  · simp [*, ascii]
  split
  · simp [*, ascii]
  split
  · simp [*, ascii]
  split
  · simp [*, ascii]
  · have h (m : Nat) (h : ¬ c = m) : (c == m) = false := by simpa using h
    simp only [h, *, not_false_eq_true]

theorem strayText_eq (b : UInt8) : strayText b = escapeByte b := by
  have : ∀ n < 256, ascii (String.ofList ((Nat.toDigits 16 (256 + n)).tail.map Char.toUpper)) =
      [upperDigit (n / 16), upperDigit (n % 16)] := by decide +kernel
  rw [strayText, this _ b.toNat_lt]
  rfl

theorem shown_strays (p : Nat → Bool) (a rest : Bytes) {t : Bytes} (h : Shown p rest t)
    (ha : ∀ i < a.length, ¬ StartsWithChar ((a ++ rest).drop i)) :
    Shown p (a ++ rest) (a.flatMap escapeByte ++ t) := by
  induction a with
  | nil => exact h
  | cons x a ih =>
    rw [List.flatMap_cons, List.append_assoc, ← strayText_eq]
    exact .stray (ha 0 (by simp)) (ih fun i hi => ha (i + 1) (by simpa using hi))

theorem round_of_start {b : Bytes} (h : StartsWithChar b) : (Utf8.round b).2 = true := by
  obtain ⟨c, hc, rest, rfl⟩ := h
  exact (Utf8.round_char hc rest).1

/-- A continuation byte begins no character. -/
theorem round_cont {b : Bytes} (h1 : 0x80 ≤ Utf8.get b 0) (h2 : Utf8.get b 0 < 0xc0) : (Utf8.round b).2 = false := by
  rw [Bool.eq_false_iff, ne_eq, Utf8.round_valid]
  omega

theorem get_drop (b : Bytes) (i j : Nat) : Utf8.get (b.drop i) j = Utf8.get b (i + j) := by
  simp [Utf8.get]

/-- In a sequence that is not valid no character begins. -/
theorem round_invalid {b : Bytes} (h : (Utf8.round b).2 = false) {i : Nat} (hi : i < (Utf8.round b).1) :
    ¬ StartsWithChar (b.drop i) := by
  intro hs
  have hs := round_of_start hs
  by_cases h0 : i = 0
  · subst h0
    rw [List.drop_zero, h] at hs
    cases hs
  have hc : 0x80 ≤ Utf8.get b i ∧ Utf8.get b i < 0xc0 := by
    unfold Utf8.round at h hi
    have c1 := Utf8.isCont_get b 1
    have c2 := Utf8.isCont_get b 2
    have s3 := Utf8.second3_iff (Utf8.get b 0) (Utf8.get b 1)
    have s4 := Utf8.second4_iff (Utf8.get b 0) (Utf8.get b 1)
    have : i = 1 ∨ i = 2 ∨ 3 ≤ i := by omega
    repeat' split at hi
    all_goals simp_all
    all_goals (rcases this with rfl | rfl | h3 <;> omega)
  rw [round_cont (by rw [get_drop]; exact hc.1) (by rw [get_drop]; exact hc.2)] at hs
  cases hs

theorem osStrFuel_shown (p : Nat → Bool) (n : Nat) (b : Bytes) (hn : b.length ≤ n) :
    Shown p b (osStrFuel p n b) := by
  induction n generalizing b with
  | zero =>
    have : b = [] := List.eq_nil_of_length_eq_zero (by omega)
    subst this
    exact .nil
  | succ n ih =>
    by_cases hb : b = []
    · subst hb
      rw [osStrFuel, if_pos rfl]
      exact .nil
    · have hpos : 1 ≤ (Utf8.round b).1 := Utf8.round_pos b
      have hlen : 0 < b.length := List.length_pos_iff.2 hb
      have h3 := ih (b.drop (Utf8.round b).1) (by rw [List.length_drop]; omega)
      rw [osStrFuel, if_neg hb]
      by_cases hv : (Utf8.round b).2 = true
      · obtain ⟨hle, c, hc, he⟩ := Utf8.char_of_round hb hv
        rw [if_pos hv, ← he, escape_charText p hc]
        have := Shown.char (printable := p) hc h3
        rwa [he, List.take_append_drop] at this
      · rw [if_neg hv]
        have hv : (Utf8.round b).2 = false := by simpa using hv
        have := shown_strays p (b.take (Utf8.round b).1) _ h3 (by
          intro i hi
          rw [List.take_append_drop]
          exact round_invalid hv (by rw [List.length_take] at hi; omega))
        rwa [List.take_append_drop] at this

theorem shown_free {p : Nat → Bool} {b t : Bytes} (h : Shown p b t) : 10 ∉ t := by
  induction h with
  | nil => simp
  | char hc _ ih =>
    rw [List.mem_append, not_or, ← escape_charText p hc]
    exact ⟨fun e => (Token.text_free p (t := .char _) hc).1 10 e rfl, ih⟩
  | stray _ _ ih =>
    rw [List.mem_append, not_or, strayText_eq]
    exact ⟨fun e => (Token.text_free p (t := .byte _) trivial).1 10 e rfl, ih⟩

/-- What is written between the quotes. -/
def inner (p : Nat → Bool) (b : Bytes) : Bytes := osStrFuel p b.length b

theorem inner_shown (p : Nat → Bool) (b : Bytes) : Shown p b (inner p b) := osStrFuel_shown p _ b (Nat.le_refl _)

theorem rep_osStr (p : Nat → Bool) (b : Bytes) :
    Rep (word (ascii "\"" ++ inner p b ++ ascii "\"")) (osStr p b) := by
  refine rep_word ?_
  simp only [List.mem_append, not_or]
  exact ⟨⟨by simp [ascii], shown_free (inner_shown p b)⟩, by simp [ascii]⟩

/-! ## Values -/

theorem rep_uuid (u : ArrayUuid) : Rep (uuid u) (arrayUuid u) := by
  cases u <;> exact rep_wrapped (by simp [ascii]) (rep_row (fun x : UInt8 => rep_number x.toNat) _)

theorem rep_raid5 (a : Raid5Algorithm) : Rep (word (ascii (raid5Name a))) (raid5 a) := by
  cases a <;> exact rep_word (by decide)

theorem rep_raid6 (a : Raid6Algorithm) : Rep (word (ascii (raid6Name a))) (raid6 a) := by
  cases a <;> exact rep_word (by decide)

theorem rep_algorithm (a : MdAlgorithm) : Rep (ReportText.algorithm a) (Debug.algorithm a) := by
  cases a with
  | unsupported l m =>
    exact rep_record (by decide) (by simp)
      (.cons (field_ok (by decide) (rep_number _)) (.cons (field_ok (by decide) (rep_number _)) .nil))
  | raid5 a => exact rep_wrapped (by decide) (rep_raid5 a)
  | raid6 a => exact rep_wrapped (by decide) (rep_raid6 a)

theorem rep_reshape (r : ReshapeStatus) : Rep (ReportText.reshape r) (Debug.reshape r) :=
  rep_record (by decide) (by simp)
    (.cons (field_ok (by decide) (rep_algorithm _))
    (.cons (field_ok (by decide) (rep_wrapped (by decide) (rep_number _)))
    (.cons (field_ok (by decide) (rep_wrapped (by decide) (rep_number _)))
    (.cons (field_ok (by decide) (rep_wrapped (by decide) (rep_number _)))
    (.cons (field_ok (by decide) (rep_number _)) .nil)))))

theorem rep_device (p : Nat → Bool) (i : MdDeviceId) : Rep (device (inner p) i) (deviceId p i) :=
  rep_record (by decide) (by simp)
    (.cons (field_ok (by decide) (rep_number _))
    (.cons (field_ok (by decide) (rep_optional (rep_osStr p) _)) .nil))

theorem rep_devices (p : Nat → Bool) (l : List MdDeviceId) :
    Rep (devices (inner p) l) (set (l.map (deviceId p))) :=
  rep_collection (forall₂_map (rep_device p))

theorem rep_table (p : Nat → Bool) {K : Type} {f : K → List Line} {key : K → Bytes} (h : ∀ k, Rep (f k) (key k))
    (m : List (K × List MdDeviceId)) :
    Rep (table (inner p) f m) (map (m.map fun e => (key e.1, list (e.2.map (deviceId p))))) := by
  rw [map, List.map_map]
  refine rep_collection (forall₂_map fun e => ?_)
  exact ((h e.1).beside (rep_word (by decide))).beside (rep_row (rep_device p) _)

end Debug
end MdRecover
