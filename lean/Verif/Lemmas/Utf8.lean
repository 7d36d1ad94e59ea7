import Verif.Model.Ext4String
import Verif.Spec.Utf8

namespace MdRecover
open MdSpec

namespace Utf8

theorem isCont_iff (x : UInt8) : isCont x.toNat = true ↔ 0x80 ≤ x.toNat ∧ x.toNat < 0xc0 := by
  have : ∀ n, n < 256 → (isCont n = true ↔ 0x80 ≤ n ∧ n < 0xc0) := by decide +kernel
  exact this _ x.toNat_lt

theorem isCont_get (b : Bytes) (i : Nat) :
    isCont (get b i) = true ↔ 0x80 ≤ get b i ∧ get b i < 0xc0 := isCont_iff _

theorem second3_iff (b x : Nat) : second3 b x = true ↔
    (b = 0xe0 ∧ 0xa0 ≤ x ∧ x ≤ 0xbf) ∨ (0xe1 ≤ b ∧ b ≤ 0xef ∧ b ≠ 0xed ∧ 0x80 ≤ x ∧ x ≤ 0xbf) ∨
      (b = 0xed ∧ 0x80 ≤ x ∧ x ≤ 0x9f) := by
  unfold second3
  simp only [Bool.or_eq_true, Bool.and_eq_true, beq_iff_eq, decide_eq_true_eq]
  omega

theorem second4_iff (b x : Nat) : second4 b x = true ↔
    (b = 0xf0 ∧ 0x90 ≤ x ∧ x ≤ 0xbf) ∨ (0xf1 ≤ b ∧ b ≤ 0xf3 ∧ 0x80 ≤ x ∧ x ≤ 0xbf) ∨
      (b = 0xf4 ∧ 0x80 ≤ x ∧ x ≤ 0x8f) := by
  unfold second4
  simp only [Bool.or_eq_true, Bool.and_eq_true, beq_iff_eq, decide_eq_true_eq]
  omega

theorem width_iff (b : Nat) : (width b = 2 ↔ 0xc2 ≤ b ∧ b < 0xe0) ∧ (width b = 3 ↔ 0xe0 ≤ b ∧ b < 0xf0)
    ∧ (width b = 4 ↔ 0xf0 ≤ b ∧ b < 0xf5) := by
  unfold width
  repeat' split
  all_goals omega

/-- The rounds that are valid. -/
theorem round_valid (b : Bytes) : (round b).2 = true ↔
    (get b 0 < 0x80 ∧ (round b).1 = 1) ∨
    (0xc2 ≤ get b 0 ∧ get b 0 < 0xe0 ∧ isCont (get b 1) ∧ (round b).1 = 2) ∨
    (0xe0 ≤ get b 0 ∧ get b 0 < 0xf0 ∧ second3 (get b 0) (get b 1) ∧ isCont (get b 2) ∧
      (round b).1 = 3) ∨
    (0xf0 ≤ get b 0 ∧ get b 0 < 0xf5 ∧ second4 (get b 0) (get b 1) ∧ isCont (get b 2) ∧
      isCont (get b 3) ∧ (round b).1 = 4) := by
  obtain ⟨w2, w3, w4⟩ := width_iff (get b 0)
  unfold round
  by_cases h1 : get b 0 < 128
  · rw [if_pos h1]; simp [h1]
  rw [if_neg h1]
  by_cases h2 : width (get b 0) = 2
  · have := w2.1 h2
    rw [if_pos h2]
    by_cases h5 : isCont (get b 1)
    · rw [if_pos h5]; simp [h5]; omega
    · rw [if_neg h5]; simp [h5]; omega
  rw [if_neg h2]
  by_cases h3 : width (get b 0) = 3
  · have := w3.1 h3
    rw [if_pos h3]
    by_cases h5 : second3 (get b 0) (get b 1)
    · rw [if_pos h5]
      by_cases h6 : isCont (get b 2)
      · rw [if_pos h6]; simp [h5, h6]; omega
      · rw [if_neg h6]; simp [h6]; omega
    · rw [if_neg h5]; simp [h5]; omega
  rw [if_neg h3]
  by_cases h4 : width (get b 0) = 4
  · have := w4.1 h4
    rw [if_pos h4]
    by_cases h5 : second4 (get b 0) (get b 1)
    · rw [if_pos h5]
      by_cases h6 : isCont (get b 2)
      · rw [if_pos h6]
        by_cases h7 : isCont (get b 3)
        · rw [if_pos h7]; simp [h5, h6, h7]; omega
        · rw [if_neg h7]; simp [h7]; omega
      · rw [if_neg h6]; simp [h6]; omega
    · rw [if_neg h5]; simp [h5]; omega
  rw [if_neg h4]
  simp
  omega

theorem round_pos (b : Bytes) : 1 ≤ (round b).1 := by
  unfold round
  repeat' split
  all_goals decide

theorem ofNat_toNat {x : UInt8} {n : Nat} (h : n = x.toNat) : UInt8.ofNat n = x := by
  subst h; exact UInt8.ofNat_toNat

theorem get_cons_zero (x : UInt8) (b : Bytes) : get (x :: b) 0 = x.toNat := rfl
theorem get_cons_succ (x : UInt8) (b : Bytes) (i : Nat) : get (x :: b) (i + 1) = get b i := rfl
theorem get_nil (i : Nat) : get [] i = 0 := rfl

theorem get_ofNat {n : Nat} (h : n < 256) : (UInt8.ofNat n).toNat = n := by
  rw [UInt8.toNat_ofNat']; exact Nat.mod_eq_of_lt h

/-- A sequence that encodes a scalar value is taken whole. -/
theorem round_char {c : Nat} (hc : IsScalar c) (rest : Bytes) :
    (round (utf8Of c ++ rest)).2 = true ∧ (round (utf8Of c ++ rest)).1 = (utf8Of c).length := by
  have key : ∀ b : Bytes, ∀ n, ((get b 0 < 0x80 ∧ n = 1) ∨
    (0xc2 ≤ get b 0 ∧ get b 0 < 0xe0 ∧ isCont (get b 1) ∧ n = 2) ∨
    (0xe0 ≤ get b 0 ∧ get b 0 < 0xf0 ∧ second3 (get b 0) (get b 1) ∧ isCont (get b 2) ∧ n = 3) ∨
    (0xf0 ≤ get b 0 ∧ get b 0 < 0xf5 ∧ second4 (get b 0) (get b 1) ∧ isCont (get b 2) ∧
      isCont (get b 3) ∧ n = 4)) → (round b).2 = true ∧ (round b).1 = n := by
    intro b n h
    obtain ⟨w2, w3, w4⟩ := width_iff (get b 0)
    unfold round
    rcases h with ⟨h, rfl⟩ | ⟨h1, h2, h3, rfl⟩ | ⟨h1, h2, h3, h4, rfl⟩ | ⟨h1, h2, h3, h4, h5, rfl⟩
    · rw [if_pos h]; exact ⟨rfl, rfl⟩
    · rw [if_neg (by omega), if_pos (w2.2 ⟨h1, h2⟩), if_pos h3]; exact ⟨rfl, rfl⟩
    · rw [if_neg (by omega), if_neg (by omega), if_pos (w3.2 ⟨h1, h2⟩), if_pos h3, if_pos h4]
      exact ⟨rfl, rfl⟩
    · rw [if_neg (by omega), if_neg (by omega), if_neg (by omega), if_pos (w4.2 ⟨h1, h2⟩), if_pos h3,
        if_pos h4, if_pos h5]
      exact ⟨rfl, rfl⟩
  apply key
  unfold IsScalar at hc
  unfold utf8Of
  simp only [isCont_get, second3_iff, second4_iff]
  by_cases h1 : c < 0x80
  · rw [if_pos h1]
    left
    refine ⟨?_, rfl⟩
    show (UInt8.ofNat c).toNat < _
    rw [get_ofNat (by omega)]; exact h1
  rw [if_neg h1]
  by_cases h2 : c < 0x800
  · rw [if_pos h2]
    right; left
    simp only [List.cons_append, get_cons_zero, get_cons_succ]
    rw [get_ofNat (by omega), get_ofNat (by omega)]
    simp only [List.length_cons, List.length_nil, and_true]
    omega
  rw [if_neg h2]
  by_cases h3 : c < 0x10000
  · rw [if_pos h3]
    right; right; left
    simp only [List.cons_append, get_cons_zero, get_cons_succ]
    rw [get_ofNat (by omega), get_ofNat (by omega), get_ofNat (by omega)]
    simp only [List.length_cons, List.length_nil, and_true]
    omega
  · rw [if_neg h3]
    right; right; right
    simp only [List.cons_append, get_cons_zero, get_cons_succ]
    rw [get_ofNat (by omega), get_ofNat (by omega), get_ofNat (by omega), get_ofNat (by omega)]
    simp only [List.length_cons, List.length_nil, and_true]
    omega

/-- A valid round takes a sequence that encodes a scalar value. -/
theorem char_of_round {b : Bytes} (hb : b ≠ []) (h : (round b).2 = true) :
    (round b).1 ≤ b.length ∧ ∃ c, IsScalar c ∧ utf8Of c = b.take (round b).1 := by
  rw [round_valid] at h
  simp only [isCont_get, second3_iff, second4_iff] at h
  match b, hb with
  | x :: b, _ =>
    have hx := x.toNat_lt
    simp only [get_cons_zero, get_cons_succ] at h
    rcases h with ⟨h, h'⟩ | ⟨h1, h2, h3, h'⟩ | ⟨h1, h2, h3, h4, h'⟩ | ⟨h1, h2, h3, h4, h5, h'⟩
    · rw [h']
      refine ⟨by simp, x.toNat, .inl (by omega), ?_⟩
      unfold utf8Of
      rw [if_pos h, ofNat_toNat rfl]; rfl
    · rw [h']
      match b with
      | [] => rw [get_nil] at h3; omega
      | y :: b =>
        rw [get_cons_zero] at h3
        refine ⟨by simp, (x.toNat - 0xc0) * 64 + (y.toNat - 0x80), .inl (by omega), ?_⟩
        unfold utf8Of
        rw [if_neg (by omega), if_pos (by omega), ofNat_toNat (x := x) (by omega),
          ofNat_toNat (x := y) (by omega)]; rfl
    · rw [h']
      match b with
      | [] => rw [get_nil] at h3; omega
      | [y] => rw [show get [y] 1 = 0 from rfl] at h4; omega
      | y :: z :: b =>
        simp only [get_cons_zero, get_cons_succ] at h3 h4
        refine ⟨by simp, (x.toNat - 0xe0) * 4096 + (y.toNat - 0x80) * 64 + (z.toNat - 0x80), ?_, ?_⟩
        · unfold IsScalar; omega
        · unfold utf8Of
          rw [if_neg (by omega), if_neg (by omega), if_pos (by omega), ofNat_toNat (x := x) (by omega),
            ofNat_toNat (x := y) (by omega), ofNat_toNat (x := z) (by omega)]; rfl
    · rw [h']
      match b with
      | [] => rw [get_nil] at h3; omega
      | [y] => rw [show get [y] 1 = 0 from rfl] at h4; omega
      | [y, z] => rw [show get [y, z] 2 = 0 from rfl] at h5; omega
      | y :: z :: u :: b =>
        simp only [get_cons_zero, get_cons_succ] at h3 h4 h5
        refine ⟨by simp, (x.toNat - 0xf0) * 262144 + (y.toNat - 0x80) * 4096 + (z.toNat - 0x80) * 64
          + (u.toNat - 0x80), ?_, ?_⟩
        · unfold IsScalar; omega
        · unfold utf8Of
          rw [if_neg (by omega), if_neg (by omega), if_neg (by omega), ofNat_toNat (x := x) (by omega),
            ofNat_toNat (x := y) (by omega), ofNat_toNat (x := z) (by omega),
            ofNat_toNat (x := u) (by omega)]; rfl

theorem utf8Of_ne_nil (c : Nat) : utf8Of c ≠ [] := by
  unfold utf8Of
  repeat' split
  all_goals (intro h; cases h)

theorem utf8Of_pos (c : Nat) : 1 ≤ (utf8Of c).length := by
  have := utf8Of_ne_nil c
  cases h : utf8Of c with
  | nil => exact absurd h this
  | cons _ _ => simp

theorem lossyFuel_nil (n : Nat) : lossyFuel n [] = [] := by
  cases n with
  | zero => rfl
  | succ n => unfold lossyFuel; rw [if_pos rfl]

theorem validFuel_nil (n : Nat) : validFuel n [] = true := by
  cases n with
  | zero => rfl
  | succ n => unfold validFuel; rw [if_pos rfl]

/-- Enough rounds are enough. -/
theorem lossyFuel_enough (n : Nat) : ∀ b : Bytes, b.length ≤ n → lossyFuel n b = lossy b := by
  induction n using Nat.strongRecOn with
  | _ n ih =>
    intro b hb
    match b, n with
    | [], n => rw [lossyFuel_nil]; rfl
    | x :: b, 0 => simp at hb
    | x :: b, n + 1 =>
      have hp := round_pos (x :: b)
      have hd : ((x :: b).drop (round (x :: b)).1).length ≤ b.length := by
        rw [List.length_drop, List.length_cons]; omega
      have hb : b.length + 1 ≤ n + 1 := hb
      have hl : lossy (x :: b) = (if (round (x :: b)).2 then (x :: b).take (round (x :: b)).1
        else replacement) ++ lossyFuel b.length ((x :: b).drop (round (x :: b)).1) := rfl
      rw [hl]
      have h1 : lossyFuel (n + 1) (x :: b) = (if (round (x :: b)).2 then
        (x :: b).take (round (x :: b)).1
        else replacement) ++ lossyFuel n ((x :: b).drop (round (x :: b)).1) := rfl
      rw [h1, ih n (by omega) _ (by omega), ih b.length (by omega) _ hd]

theorem lossy_nil : lossy [] = [] := rfl

theorem lossy_cons {b : Bytes} (hb : b ≠ []) :
    lossy b = (if (round b).2 then b.take (round b).1 else replacement)
      ++ lossy (b.drop (round b).1) := by
  match b, hb with
  | x :: b, _ =>
    have hp := round_pos (x :: b)
    have hl : lossy (x :: b) = (if (round (x :: b)).2 then (x :: b).take (round (x :: b)).1
        else replacement) ++ lossyFuel b.length ((x :: b).drop (round (x :: b)).1) := rfl
    rw [hl, lossyFuel_enough]
    rw [List.length_drop, List.length_cons]; omega

theorem lossy_char {c : Nat} (hc : IsScalar c) (rest : Bytes) :
    lossy (utf8Of c ++ rest) = utf8Of c ++ lossy rest := by
  have hne : utf8Of c ++ rest ≠ [] := fun h => utf8Of_ne_nil c (List.append_eq_nil_iff.1 h).1
  obtain ⟨h1, h2⟩ := round_char hc rest
  rw [lossy_cons hne, if_pos h1, h2, List.take_left, List.drop_left]

/-- Well-formed strings are unchanged. -/
theorem lossy_utf8 {b : Bytes} (h : IsUtf8 b) : lossy b = b := by
  obtain ⟨cs, h1, rfl⟩ := h
  induction cs with
  | nil => rfl
  | cons c cs ih =>
    rw [List.flatMap_cons, lossy_char (h1 c List.mem_cons_self),
      ih (fun x hx => h1 x (List.mem_cons_of_mem _ hx))]

theorem isUtf8_append {a b : Bytes} (ha : IsUtf8 a) (hb : IsUtf8 b) : IsUtf8 (a ++ b) := by
  obtain ⟨cs, h1, rfl⟩ := ha
  obtain ⟨ds, h2, rfl⟩ := hb
  refine ⟨cs ++ ds, fun x hx => ?_, by rw [List.flatMap_append]⟩
  rcases List.mem_append.1 hx with h | h
  · exact h1 x h
  · exact h2 x h

theorem isUtf8_char {c : Nat} (hc : IsScalar c) : IsUtf8 (utf8Of c) :=
  ⟨[c], fun x hx => by rw [List.mem_singleton.1 hx]; exact hc, by simp⟩

theorem isUtf8_replacement : IsUtf8 replacement :=
  isUtf8_char (c := 0xfffd) (.inr (by omega))

/-- The result is well-formed. -/
theorem isUtf8_lossy (b : Bytes) : IsUtf8 (lossy b) := by
  obtain ⟨n, hn⟩ : ∃ n, b.length = n := ⟨_, rfl⟩
  induction n using Nat.strongRecOn generalizing b with
  | _ n ih =>
    by_cases hb : b = []
    · subst hb; exact ⟨[], fun _ h => (by cases h), rfl⟩
    · rw [lossy_cons hb]
      have hp := round_pos b
      have hl : 0 < b.length := List.length_pos_iff.2 hb
      refine isUtf8_append ?_ (ih _ (by rw [List.length_drop]; omega) _ rfl)
      split
      · rename_i h
        obtain ⟨-, c, h1, h2⟩ := char_of_round hb h
        rw [← h2]; exact isUtf8_char h1
      · exact isUtf8_replacement

theorem validFuel_iff (n : Nat) : ∀ b : Bytes, b.length ≤ n → (validFuel n b = true ↔ IsUtf8 b) := by
  induction n with
  | zero =>
    intro b hb
    have : b = [] := List.length_eq_zero_iff.1 (by omega)
    subst this
    exact ⟨fun _ => ⟨[], fun _ h => (by cases h), rfl⟩, fun _ => rfl⟩
  | succ n ih =>
    intro b hb
    by_cases hne : b = []
    · subst hne
      exact ⟨fun _ => ⟨[], fun _ h => (by cases h), rfl⟩, fun _ => validFuel_nil _⟩
    have hp := round_pos b
    have hl : 0 < b.length := List.length_pos_iff.2 hne
    have h1 : validFuel (n + 1) b = ((round b).2 && validFuel n (b.drop (round b).1)) := by
      show (if b = [] then true else _) = _
      rw [if_neg hne]
    rw [h1, Bool.and_eq_true, ih _ (by rw [List.length_drop]; omega)]
    constructor
    · rintro ⟨h2, h3⟩
      obtain ⟨-, c, h4, h5⟩ := char_of_round hne h2
      have := isUtf8_append (isUtf8_char h4) h3
      rwa [h5, List.take_append_drop] at this
    · rintro ⟨cs, h2, h3⟩
      match cs with
      | [] => exact absurd h3 hne
      | c :: cs =>
        rw [List.flatMap_cons] at h3
        obtain ⟨h4, h5⟩ := round_char (h2 c List.mem_cons_self) (cs.flatMap utf8Of)
        rw [← h3] at h4 h5
        refine ⟨h4, cs, fun x hx => h2 x (List.mem_cons_of_mem _ hx), ?_⟩
        rw [h5, h3, List.drop_left]

end Utf8

namespace Ext4String

theorem cmpBytes_eq (a b : Bytes) : cmpBytes a b = .eq ↔ a = b := by
  induction a generalizing b with
  | nil => cases b with
    | nil => exact ⟨fun _ => rfl, fun _ => rfl⟩
    | cons y b => exact ⟨fun h => (by cases h), fun h => (by cases h)⟩
  | cons x a ih =>
    cases b with
    | nil => exact ⟨fun h => (by cases h), fun h => (by cases h)⟩
    | cons y b =>
      show (if x < y then Ordering.lt else if y < x then .gt else cmpBytes a b) = _ ↔ _
      by_cases h1 : x < y
      · rw [if_pos h1]
        exact ⟨fun h => (by cases h), fun h => by cases h; exact absurd h1 (UInt8.lt_irrefl x)⟩
      rw [if_neg h1]
      by_cases h2 : y < x
      · rw [if_pos h2]
        exact ⟨fun h => (by cases h), fun h => by cases h; exact absurd h2 (UInt8.lt_irrefl x)⟩
      rw [if_neg h2, ih]
      have hxy : x = y := by
        rw [UInt8.lt_iff_toNat_lt] at h1 h2
        exact UInt8.toNat_inj.1 (by omega)
      subst hxy
      simp

theorem cmpBytes_swap (a b : Bytes) : cmpBytes b a = (cmpBytes a b).swap := by
  induction a generalizing b with
  | nil => cases b <;> rfl
  | cons x a ih =>
    cases b with
    | nil => rfl
    | cons y b =>
      show (if y < x then Ordering.lt else if x < y then .gt else cmpBytes b a)
        = (if x < y then Ordering.lt else if y < x then .gt else cmpBytes a b).swap
      by_cases h1 : x < y
      · have h2 : ¬ y < x := by rw [UInt8.lt_iff_toNat_lt] at h1 ⊢; omega
        rw [if_neg h2, if_pos h1, if_pos h1]; rfl
      · by_cases h2 : y < x
        · rw [if_pos h2, if_neg h1, if_pos h2]; rfl
        · rw [if_neg h2, if_neg h1, if_neg h1, if_neg h2, ih]

theorem cmpBytes_lt (a b : Bytes) : cmpBytes a b = .lt ↔ BytesLt a b := by
  induction a generalizing b with
  | nil => cases b with
    | nil =>
      refine ⟨fun h => (by cases h), ?_⟩
      rintro (⟨x, t, h⟩ | ⟨p, x, y, s, t, h, -⟩)
      · cases h
      · cases p <;> cases h
    | cons y b => exact ⟨fun _ => .inl ⟨y, b, rfl⟩, fun _ => rfl⟩
  | cons x a ih =>
    cases b with
    | nil =>
      refine ⟨fun h => (by cases h), ?_⟩
      rintro (⟨x, t, h⟩ | ⟨p, x, y, s, t, -, h, -⟩)
      · cases h
      · cases p <;> cases h
    | cons y b =>
      show (if x < y then Ordering.lt else if y < x then .gt else cmpBytes a b) = _ ↔ _
      by_cases h1 : x < y
      · rw [if_pos h1]
        refine ⟨fun _ => .inr ⟨[], x, y, a, b, rfl, rfl, UInt8.lt_iff_toNat_lt.1 h1⟩, fun _ => rfl⟩
      rw [if_neg h1]
      by_cases h2 : y < x
      · rw [if_pos h2]
        refine ⟨fun h => (by cases h), ?_⟩
        rw [UInt8.lt_iff_toNat_lt] at h2
        rintro (⟨z, t, h⟩ | ⟨p, x', y', s, t, h, h', h3⟩)
        · cases h; omega
        · cases p with
          | nil => cases h; cases h'; omega
          | cons u p => cases h; cases h'; omega
      rw [if_neg h2, ih]
      have hxy : x = y := by
        rw [UInt8.lt_iff_toNat_lt] at h1 h2
        exact UInt8.toNat_inj.1 (by omega)
      subst hxy
      constructor
      · rintro (⟨z, t, rfl⟩ | ⟨p, x', y', s, t, rfl, rfl, h3⟩)
        · exact .inl ⟨z, t, rfl⟩
        · exact .inr ⟨x :: p, x', y', s, t, rfl, rfl, h3⟩
      · rintro (⟨z, t, h⟩ | ⟨p, x', y', s, t, h, h', h3⟩)
        · cases h; exact .inl ⟨z, t, rfl⟩
        · cases p with
          | nil => cases h; cases h'; omega
          | cons u p => cases h; cases h'; exact .inr ⟨p, x', y', s, t, rfl, rfl, h3⟩

theorem cmpBytes_trans {a b c : Bytes} (h1 : cmpBytes a b = .lt) (h2 : cmpBytes b c = .lt) :
    cmpBytes a c = .lt := by
  induction a generalizing b c with
  | nil =>
    cases c with
    | nil => cases b <;> cases h2
    | cons _ _ => rfl
  | cons x a ih =>
    cases b with
    | nil => cases h1
    | cons y b =>
      cases c with
      | nil => cases h2
      | cons z c =>
        have h1 : (if x < y then Ordering.lt else if y < x then .gt else cmpBytes a b) = .lt := h1
        have h2 : (if y < z then Ordering.lt else if z < y then .gt else cmpBytes b c) = .lt := h2
        show (if x < z then Ordering.lt else if z < x then .gt else cmpBytes a c) = .lt
        simp only [UInt8.lt_iff_toNat_lt] at h1 h2 ⊢
        split at h1
        · split at h2
          · rw [if_pos (by omega)]
          · split at h2
            · cases h2
            · rw [if_pos (by omega)]
        · split at h1
          · cases h1
          · split at h2
            · rw [if_pos (by omega)]
            · split at h2
              · cases h2
              · rw [if_neg (by omega), if_neg (by omega), ih h1 h2]

end Ext4String
end MdRecover
