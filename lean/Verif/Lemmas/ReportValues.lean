import Verif.Lemmas.Report

namespace MdRecover
namespace Debug
open MdSpec

theorem digit_cases : ∀ d < 16, (48 ≤ (digit d).toNat ∧ (digit d).toNat ≤ 57) ∨
    (97 ≤ (digit d).toNat ∧ (digit d).toNat ≤ 102) := by decide

theorem digit_inj : ∀ a < 16, ∀ b < 16, digit a = digit b → a = b := by decide

theorem upperDigit_inj : ∀ a < 16, ∀ b < 16, upperDigit a = upperDigit b → a = b := by decide

theorem map_digit_inj {l l' : List Nat} (h : ∀ d ∈ l, d < 16) (h' : ∀ d ∈ l', d < 16)
    (e : l.map digit = l'.map digit) : l = l' := by
  induction l generalizing l' with
  | nil => cases l' with
    | nil => rfl
    | cons _ _ => simp at e
  | cons a l ih => cases l' with
    | nil => simp at e
    | cons b l' =>
      rw [List.map_cons, List.map_cons, List.cons_eq_cons] at e
      rw [digit_inj a (h a (by simp)) b (h' b (by simp)) e.1,
        ih (fun d hd => h d (by simp [hd])) (fun d hd => h' d (by simp [hd])) e.2]

theorem mem_digits_lt {b n d : Nat} (hb : 1 < b) (hb' : b ≤ 16) (h : d ∈ Nat.digits b n) : d < 16 :=
  Nat.lt_of_lt_of_le (Nat.digits_lt_base hb h) hb'

/-- The bytes of a number are digits. -/
theorem mem_number {b n : Nat} (hb : 1 < b) (hb' : b ≤ 16) {c : UInt8} (h : c ∈ number b n) :
    (48 ≤ c.toNat ∧ c.toNat ≤ 57) ∨ (97 ≤ c.toNat ∧ c.toNat ≤ 102) := by
  unfold number at h
  split at h
  · rw [show ascii "0" = [48] by simp [ascii]] at h
    rw [List.mem_singleton.1 h]; decide
  · obtain ⟨d, hd, rfl⟩ := List.mem_map.1 h
    exact digit_cases d (mem_digits_lt hb hb' (List.mem_reverse.1 hd))

theorem number_inj {b : Nat} (hb : 1 < b) (hb' : b ≤ 16) {m n : Nat} (h : number b m = number b n) : m = n := by
  have e : ascii "0" = [0].map digit := by simp [ascii, digit]
  have key (n) (hn : n ≠ 0) : Nat.digits b n ≠ [0] := fun h => by
    have h1 := congrArg (Nat.ofDigits b) h
    rw [Nat.ofDigits_digits] at h1
    exact hn (by simpa [Nat.ofDigits] using h1)
  have small (n) : ∀ d ∈ (Nat.digits b n).reverse, d < 16 :=
    fun d hd => mem_digits_lt hb hb' (List.mem_reverse.1 hd)
  unfold number at h
  split at h
  · split at h
    · subst_vars; rfl
    · rename_i hn
      rw [e] at h
      have h1 := map_digit_inj (by simp) (small n) h
      exact absurd (by simpa using congrArg List.reverse h1.symm) (key n hn)
  · rename_i hm
    split at h
    · rw [e] at h
      have h1 := map_digit_inj (small m) (by simp) h
      exact absurd (by simpa using congrArg List.reverse h1) (key m hm)
    · have h1 := map_digit_inj (small m) (small n) h
      exact Nat.digits_inj_iff.1 (List.reverse_inj.1 h1)

theorem decimal_unamb : Unamb decimal := by
  refine Unamb.atom (fun a c hc => ?_) fun a b => number_inj (by decide) (by decide)
  have h := mem_number (by decide) (by decide) hc
  rintro (rfl | rfl | rfl) <;> revert h <;> decide

theorem codePoint_two (x y a b : Nat) (hx : x = 0xc0 + a) (hy : y = 0x80 + b) (ha : x < 256) (hb : y < 256) :
    codePoint [UInt8.ofNat x, UInt8.ofNat y] = a * 64 + b := by
  show ((UInt8.ofNat x).toNat - 0xc0) * 64 + ((UInt8.ofNat y).toNat - 0x80) = _
  rw [Utf8.get_ofNat ha, Utf8.get_ofNat hb]; omega

theorem codePoint_three (x y z a b c : Nat) (hx : x = 0xe0 + a) (hy : y = 0x80 + b) (hz : z = 0x80 + c)
    (ha : x < 256) (hb : y < 256) (hc : z < 256) :
    codePoint [UInt8.ofNat x, UInt8.ofNat y, UInt8.ofNat z] = a * 4096 + b * 64 + c := by
  show ((UInt8.ofNat x).toNat - 0xe0) * 4096 + ((UInt8.ofNat y).toNat - 0x80) * 64 +
    ((UInt8.ofNat z).toNat - 0x80) = _
  rw [Utf8.get_ofNat ha, Utf8.get_ofNat hb, Utf8.get_ofNat hc]; omega

theorem codePoint_four (x y z w a b c d : Nat) (hx : x = 0xf0 + a) (hy : y = 0x80 + b) (hz : z = 0x80 + c)
    (hw : w = 0x80 + d) (ha : x < 256) (hb : y < 256) (hc : z < 256) (hd : w < 256) :
    codePoint [UInt8.ofNat x, UInt8.ofNat y, UInt8.ofNat z, UInt8.ofNat w] =
      a * 262144 + b * 4096 + c * 64 + d := by
  show ((UInt8.ofNat x).toNat - 0xf0) * 262144 + ((UInt8.ofNat y).toNat - 0x80) * 4096 +
    ((UInt8.ofNat z).toNat - 0x80) * 64 + ((UInt8.ofNat w).toNat - 0x80) = _
  rw [Utf8.get_ofNat ha, Utf8.get_ofNat hb, Utf8.get_ofNat hc, Utf8.get_ofNat hd]; omega

theorem codePoint_utf8Of {c : Nat} (hc : IsScalar c) : codePoint (utf8Of c) = c := by
  unfold IsScalar at hc
  unfold utf8Of
  by_cases h1 : c < 0x80
  · rw [if_pos h1]; exact Utf8.get_ofNat (by omega)
  rw [if_neg h1]
  by_cases h2 : c < 0x800
  · rw [if_pos h2, codePoint_two _ _ _ _ rfl rfl (by omega) (by omega)]; omega
  rw [if_neg h2]
  by_cases h3 : c < 0x10000
  · rw [if_pos h3, codePoint_three _ _ _ _ _ _ rfl rfl rfl (by omega) (by omega) (by omega)]; omega
  · rw [if_neg h3, codePoint_four _ _ _ _ _ _ _ _ rfl rfl rfl rfl (by omega) (by omega) (by omega) (by omega)]; omega

/-- The encodings of scalar values are a prefix code. -/
theorem utf8Of_prefix {c d : Nat} (hc : IsScalar c) (hd : IsScalar d) {r s : Bytes}
    (h : utf8Of c ++ r = utf8Of d ++ s) : c = d ∧ r = s := by
  have hl : (utf8Of c).length = (utf8Of d).length := by
    rw [← (Utf8.round_char hc r).2, ← (Utf8.round_char hd s).2, h]
  obtain ⟨h1, h2⟩ := List.append_inj h hl
  refine ⟨?_, h2⟩
  rw [← codePoint_utf8Of hc, ← codePoint_utf8Of hd, h1]

/-- A byte below 128 occurs in an encoding only if it is the character itself. -/
theorem mem_utf8Of {c : Nat} (hc : IsScalar c) {x : UInt8} (hx : x ∈ utf8Of c) (h : x.toNat < 128) :
    c = x.toNat := by
  unfold IsScalar at hc
  unfold utf8Of at hx
  split at hx
  · rw [List.mem_singleton.1 hx, Utf8.get_ofNat (by omega)]
  exfalso
  have small (n) (h1 : n < 256) (h2 : 128 ≤ n) (h3 : x = UInt8.ofNat n) : False := by
    rw [h3, Utf8.get_ofNat h1] at h; omega
  split at hx
  · simp only [List.mem_cons, List.not_mem_nil, or_false] at hx
    rcases hx with hx | hx <;> exact small _ (by omega) (by omega) hx
  split at hx
  · simp only [List.mem_cons, List.not_mem_nil, or_false] at hx
    rcases hx with hx | hx | hx <;> exact small _ (by omega) (by omega) hx
  · simp only [List.mem_cons, List.not_mem_nil, or_false] at hx
    rcases hx with hx | hx | hx | hx <;> exact small _ (by omega) (by omega) hx

/-- What is written piece by piece: a character, or a byte that is not part of one. -/
inductive Token where
  | char (c : Nat)
  | byte (b : UInt8)

/-- The text of a token. -/
def Token.text (p : Nat → Bool) : Token → Bytes
  | .char c => escape p (utf8Of c)
  | .byte b => escapeByte b

/-- The bytes of a token. -/
def Token.bytes : Token → Bytes
  | .char c => utf8Of c
  | .byte b => [b]

/-- The token is a byte or a scalar value. -/
def Token.Ok : Token → Prop
  | .char c => IsScalar c
  | .byte _ => True

/-- The form of the text of a character: the character itself, or a backslash and something that tells the
character. -/
theorem escape_form (p : Nat → Bool) {c : Nat} (hc : IsScalar c) :
    (escape p (utf8Of c) = utf8Of c ∧ c ≠ 92 ∧ c ≠ 34 ∧ c ≠ 10) ∨
      (∃ e, escape p (utf8Of c) = [92, e] ∧
        ((c = 0 ∧ e = 48) ∨ (c = 9 ∧ e = 116) ∨ (c = 13 ∧ e = 114) ∨ (c = 10 ∧ e = 110) ∨ (c = 92 ∧ e = 92) ∨
          (c = 34 ∧ e = 34) ∨ (c = 39 ∧ e = 39))) ∨
      escape p (utf8Of c) = [92, 117, 123] ++ number 16 c ++ [125] := by
  unfold escape
  rw [codePoint_utf8Of hc]
  split; · exact .inr (.inl ⟨48, by simp [ascii], by simp_all⟩)
  split; · exact .inr (.inl ⟨116, by simp [ascii], by simp_all⟩)
  split; · exact .inr (.inl ⟨114, by simp [ascii], by simp_all⟩)
  split; · exact .inr (.inl ⟨110, by simp [ascii], by simp_all⟩)
  split; · exact .inr (.inl ⟨92, by simp [ascii], by simp_all⟩)
  split; · exact .inr (.inl ⟨34, by simp [ascii], by simp_all⟩)
  split; · exact .inr (.inl ⟨39, by simp [ascii], by simp_all⟩)
  split
  · exact .inl ⟨rfl, by assumption, by assumption, by assumption⟩
  · exact .inr (.inr (by simp [ascii]))

theorem escapeByte_form (b : UInt8) :
    escapeByte b = [92, 120, upperDigit (b.toNat / 16), upperDigit (b.toNat % 16)] := by
  simp [escapeByte, ascii]

/-- A text that is the character itself does not begin with a backslash. -/
theorem utf8Of_head {c : Nat} (hc : IsScalar c) (h : c ≠ 92) {r t : Bytes} (e : utf8Of c ++ r = 92 :: t) : False := by
  match hu : utf8Of c with
  | [] => exact Utf8.utf8Of_ne_nil c hu
  | x :: u =>
    rw [hu, List.cons_append, List.cons_eq_cons] at e
    have := mem_utf8Of hc (x := 92) (by rw [hu, e.1]; simp) (by decide)
    exact h this

/-- The texts of tokens are a prefix code. -/
theorem Token.text_prefix (p : Nat → Bool) {t u : Token} (ht : t.Ok) (hu : u.Ok) {r s : Bytes}
    (h : t.text p ++ r = u.text p ++ s) : t = u ∧ r = s := by
  have num {c d : Nat} {r s : Bytes} (e : number 16 c ++ ([125] ++ r) = number 16 d ++ ([125] ++ s)) :
      c = d ∧ r = s := by
    have hf (n) (x : UInt8) (hx : x ∈ number 16 n) : ¬ x = 125 := by
      rintro rfl
      exact absurd (mem_number (by decide) (by decide) hx) (by decide)
    obtain ⟨h1, h2⟩ := split_at_stop (S := (· = 125)) (hf c) (hf d) ⟨125, r, rfl, rfl⟩ ⟨125, s, rfl, rfl⟩ e
    exact ⟨number_inj (by decide) (by decide) h1, (List.cons_eq_cons.1 h2).2⟩
  match t, u with
  | .char c, .char d =>
    simp only [Token.text] at h
    rcases escape_form p ht with ⟨e1, n1, -⟩ | ⟨e, e1, c1⟩ | e1 <;>
      rcases escape_form p hu with ⟨e2, n2, -⟩ | ⟨f, e2, c2⟩ | e2 <;> rw [e1, e2] at h
    · obtain ⟨h1, h2⟩ := utf8Of_prefix ht hu h
      exact ⟨by rw [h1], h2⟩
    · exact (utf8Of_head ht n1 (by simpa using h)).elim
    · exact (utf8Of_head ht n1 (by simpa using h)).elim
    · exact (utf8Of_head hu n2 (by simpa using h.symm)).elim
    · simp only [List.cons_append, List.nil_append, List.cons_eq_cons, true_and] at h
      obtain ⟨rfl, h2⟩ := h
      refine ⟨?_, h2⟩
      rcases c1 with ⟨rfl, rfl⟩ | ⟨rfl, rfl⟩ | ⟨rfl, rfl⟩ | ⟨rfl, rfl⟩ | ⟨rfl, rfl⟩ | ⟨rfl, rfl⟩ | ⟨rfl, rfl⟩ <;>
        rcases c2 with ⟨rfl, h3⟩ | ⟨rfl, h3⟩ | ⟨rfl, h3⟩ | ⟨rfl, h3⟩ | ⟨rfl, h3⟩ | ⟨rfl, h3⟩ | ⟨rfl, h3⟩ <;>
        first
        | rfl
        | exact absurd h3 (by decide)
    · simp only [List.cons_append, List.nil_append, List.cons_eq_cons, true_and] at h
      obtain ⟨rfl, h2⟩ := h
      rcases c1 with ⟨_, h3⟩ | ⟨_, h3⟩ | ⟨_, h3⟩ | ⟨_, h3⟩ | ⟨_, h3⟩ | ⟨_, h3⟩ | ⟨_, h3⟩ <;>
        exact absurd h3 (by decide)
    · exact (utf8Of_head hu n2 (by simpa using h.symm)).elim
    · simp only [List.cons_append, List.nil_append, List.cons_eq_cons, true_and] at h
      obtain ⟨rfl, h2⟩ := h
      rcases c2 with ⟨_, h3⟩ | ⟨_, h3⟩ | ⟨_, h3⟩ | ⟨_, h3⟩ | ⟨_, h3⟩ | ⟨_, h3⟩ | ⟨_, h3⟩ <;>
        exact absurd h3 (by decide)
    · rw [List.append_assoc, List.append_assoc, List.append_assoc, List.append_assoc] at h
      obtain ⟨h1, h2⟩ := num (List.append_cancel_left h)
      exact ⟨by rw [h1], h2⟩
  | .char c, .byte b =>
    simp only [Token.text, escapeByte_form] at h
    rcases escape_form p ht with ⟨e1, n1, -⟩ | ⟨e, e1, c1⟩ | e1 <;> rw [e1] at h
    · exact (utf8Of_head ht n1 (by simpa using h)).elim
    · simp only [List.cons_append, List.nil_append, List.cons_eq_cons, true_and] at h
      obtain ⟨rfl, h2⟩ := h
      rcases c1 with ⟨_, h3⟩ | ⟨_, h3⟩ | ⟨_, h3⟩ | ⟨_, h3⟩ | ⟨_, h3⟩ | ⟨_, h3⟩ | ⟨_, h3⟩ <;>
        exact absurd h3 (by decide)
    · simp only [List.cons_append, List.cons_eq_cons, true_and] at h
      exact absurd h.1 (by decide)
  | .byte b, .char c =>
    simp only [Token.text, escapeByte_form] at h
    rcases escape_form p hu with ⟨e1, n1, -⟩ | ⟨e, e1, c1⟩ | e1 <;> rw [e1] at h
    · exact (utf8Of_head hu n1 (by simpa using h.symm)).elim
    · simp only [List.cons_append, List.nil_append, List.cons_eq_cons, true_and] at h
      obtain ⟨rfl, h2⟩ := h
      rcases c1 with ⟨_, h3⟩ | ⟨_, h3⟩ | ⟨_, h3⟩ | ⟨_, h3⟩ | ⟨_, h3⟩ | ⟨_, h3⟩ | ⟨_, h3⟩ <;>
        exact absurd h3 (by decide)
    · simp only [List.cons_append, List.cons_eq_cons, true_and] at h
      exact absurd h.1 (by decide)
  | .byte a, .byte b =>
    simp only [Token.text, escapeByte_form, List.cons_append, List.nil_append, List.cons_eq_cons,
      true_and] at h
    have ha := a.toNat_lt
    have hb := b.toNat_lt
    have h1 := upperDigit_inj _ (by omega) _ (by omega) h.1
    have h2 := upperDigit_inj _ (by omega) _ (by omega) h.2.1
    have : a = b := UInt8.toNat_inj.1 (by omega)
    exact ⟨by rw [this], h.2.2⟩

/-- The texts contain no line end and do not begin with a quotation mark. -/
theorem Token.text_free (p : Nat → Bool) {t : Token} (ht : t.Ok) :
    (∀ c ∈ t.text p, c ≠ 10) ∧ ∃ c u, t.text p = c :: u ∧ c ≠ 34 := by
  match t with
  | .byte b =>
    simp only [Token.text, escapeByte_form]
    refine ⟨?_, 92, _, rfl, by decide⟩
    have up : ∀ d < 16, upperDigit d ≠ 10 := by decide
    have hb := b.toNat_lt
    intro c hc
    simp only [List.mem_cons, List.not_mem_nil, or_false] at hc
    rcases hc with rfl | rfl | rfl | rfl
    · decide
    · decide
    · exact up _ (by omega)
    · exact up _ (by omega)
  | .char c =>
    simp only [Token.text]
    rcases escape_form p ht with ⟨e1, n1, n2, n3⟩ | ⟨e, e1, c1⟩ | e1 <;> rw [e1]
    · refine ⟨fun x hx h => ?_, ?_⟩
      · subst h
        exact n3 (mem_utf8Of ht hx (by decide))
      · match hu : utf8Of c with
        | [] => exact (Utf8.utf8Of_ne_nil c hu).elim
        | x :: u =>
          refine ⟨x, u, rfl, ?_⟩
          rintro rfl
          exact n2 (mem_utf8Of ht (x := 34) (by rw [hu]; simp) (by decide))
    · refine ⟨?_, 92, _, rfl, by decide⟩
      intro x hx
      simp only [List.mem_cons, List.not_mem_nil, or_false] at hx
      rcases hx with rfl | rfl
      · decide
      · rcases c1 with ⟨_, rfl⟩ | ⟨_, rfl⟩ | ⟨_, rfl⟩ | ⟨_, rfl⟩ | ⟨_, rfl⟩ | ⟨_, rfl⟩ | ⟨_, rfl⟩ <;> decide
    · refine ⟨?_, 92, _, rfl, by decide⟩
      intro x hx
      simp only [List.cons_append, List.nil_append, List.mem_cons, List.mem_append, List.not_mem_nil,
        or_false] at hx
      rcases hx with rfl | rfl | rfl | hx | rfl
      · decide
      · decide
      · decide
      · rintro rfl
        exact absurd (mem_number (by decide) (by decide) hx) (by decide)
      · decide

/-- What is written for a byte string is the text of tokens whose bytes are the string. -/
theorem osStrFuel_tokens (p : Nat → Bool) (n : Nat) (b : Bytes) (hn : b.length ≤ n) :
    ∃ ts : List Token, (∀ t ∈ ts, t.Ok) ∧ ts.flatMap (·.bytes) = b ∧
      osStrFuel p n b = ts.flatMap (·.text p) := by
  induction n generalizing b with
  | zero =>
    have : b = [] := List.eq_nil_of_length_eq_zero (by omega)
    subst this
    exact ⟨[], by simp, rfl, rfl⟩
  | succ n ih =>
    by_cases hb : b = []
    · subst hb
      exact ⟨[], by simp, rfl, by simp [osStrFuel]⟩
    · have hpos : 1 ≤ (Utf8.round b).1 := Utf8.round_pos b
      have hlen : 0 < b.length := List.length_pos_iff.2 hb
      obtain ⟨ts, h1, h2, h3⟩ := ih (b.drop (Utf8.round b).1) (by rw [List.length_drop]; omega)
      rw [osStrFuel, if_neg hb, h3]
      by_cases hv : (Utf8.round b).2 = true
      · obtain ⟨hle, c, hc, he⟩ := Utf8.char_of_round hb hv
        refine ⟨.char c :: ts, ?_, ?_, ?_⟩
        · intro t ht
          rcases List.mem_cons.1 ht with rfl | ht
          · exact hc
          · exact h1 t ht
        · rw [List.flatMap_cons, h2]
          show utf8Of c ++ _ = b
          rw [he, List.take_append_drop]
        · rw [if_pos hv, List.flatMap_cons, ← he]; rfl
      · refine ⟨(b.take (Utf8.round b).1).map .byte ++ ts, ?_, ?_, ?_⟩
        · intro t ht
          rcases List.mem_append.1 ht with ht | ht
          · obtain ⟨x, _, rfl⟩ := List.mem_map.1 ht
            trivial
          · exact h1 t ht
        · rw [List.flatMap_append, h2, List.flatMap_map]
          have : (fun x : UInt8 => (Token.byte x).bytes) = fun x => [x] := rfl
          rw [this, List.flatMap_singleton', List.take_append_drop]
        · rw [if_neg hv, List.flatMap_append, List.flatMap_map]
          rfl

theorem tokens_prefix (p : Nat → Bool) {ts us : List Token} (ht : ∀ t ∈ ts, t.Ok) (hu : ∀ t ∈ us, t.Ok)
    {r s : Bytes} (h : ts.flatMap (·.text p) ++ 34 :: r = us.flatMap (·.text p) ++ 34 :: s) :
    ts = us ∧ r = s := by
  induction ts generalizing us with
  | nil =>
    cases us with
    | nil => exact ⟨rfl, (List.cons_eq_cons.1 h).2⟩
    | cons u us =>
      obtain ⟨c, v, e, hc⟩ := (Token.text_free p (hu u (by simp))).2
      rw [List.flatMap_nil, List.flatMap_cons, e] at h
      exact absurd (List.cons_eq_cons.1 h).1.symm hc
  | cons t ts ih =>
    cases us with
    | nil =>
      obtain ⟨c, v, e, hc⟩ := (Token.text_free p (ht t (by simp))).2
      rw [List.flatMap_nil, List.flatMap_cons, e] at h
      exact absurd (List.cons_eq_cons.1 h).1 hc
    | cons u us =>
      rw [List.flatMap_cons, List.flatMap_cons, List.append_assoc, List.append_assoc] at h
      obtain ⟨h1, h2⟩ := Token.text_prefix p (ht t (by simp)) (hu u (by simp)) h
      obtain ⟨h3, h4⟩ := ih (fun t h => ht t (by simp [h])) (fun t h => hu t (by simp [h])) h2
      exact ⟨by rw [h1, h3], h4⟩

theorem osStr_unamb (p : Nat → Bool) : Unamb (osStr p) := by
  intro k a b r s _ _ h
  obtain ⟨ts, t1, t2, t3⟩ := osStrFuel_tokens p a.length a (Nat.le_refl _)
  obtain ⟨us, u1, u2, u3⟩ := osStrFuel_tokens p b.length b (Nat.le_refl _)
  have hfree (ts : List Token) (ht : ∀ t ∈ ts, t.Ok) : ind k (ts.flatMap (·.text p)) = ts.flatMap (·.text p) := by
    refine ind_free fun c hc => ?_
    obtain ⟨t, h1, h2⟩ := List.mem_flatMap.1 hc
    exact (Token.text_free p (ht t h1)).1 c h2
  have hq : ascii "\"" = [34] := by simp [ascii]
  simp only [osStr, ind_append, t3, u3, hfree ts t1, hfree us u1, hq, ind_bracket (c := 34) (by decide),
    List.append_assoc, List.append_cancel_left_eq] at h
  obtain ⟨h1, h2⟩ := tokens_prefix p t1 u1 h
  exact ⟨by rw [← t2, ← u2, h1], h2⟩

theorem bytes_unamb : Unamb bytes :=
  list_unamb (decimal_unamb.comp (f := UInt8.toNat) fun _ _ h => UInt8.toNat_inj.1 h)

theorem arrayUuid_unamb : Unamb arrayUuid := by
  intro k a b r s hr hs h
  have e1 : ascii "Short" = 83 :: ascii "hort" := by simp [ascii]
  have e2 : ascii "Long" = 76 :: ascii "ong" := by simp [ascii]
  match a, b with
  | .short a, .short b =>
    obtain ⟨h1, h2⟩ := tuple1_unamb bytes_unamb "Short" k a b r s hr hs h
    exact ⟨by rw [h1], h2⟩
  | .long a, .long b =>
    obtain ⟨h1, h2⟩ := tuple1_unamb bytes_unamb "Long" k a b r s hr hs h
    exact ⟨by rw [h1], h2⟩
  | .short a, .long b =>
    simp only [arrayUuid, tuple1, e1, e2, List.cons_append] at h
    exact (ind_head (by decide) (by decide) (by decide) h).elim
  | .long a, .short b =>
    simp only [arrayUuid, tuple1, e1, e2, List.cons_append] at h
    exact (ind_head (by decide) (by decide) (by decide) h).elim

theorem raid5_unamb : Unamb raid5 := by
  refine Unamb.atom (fun a => ?_) fun a b h => ?_
  · cases a <;> simp only [raid5] <;> decide
  · revert h; cases a <;> cases b <;> simp only [raid5] <;> decide

theorem raid6_unamb : Unamb raid6 := by
  refine Unamb.atom (fun a => ?_) fun a b h => ?_
  · cases a <;> simp only [raid6] <;> decide
  · revert h; cases a <;> cases b <;> simp only [raid6] <;> decide

theorem algorithm_unamb : Unamb algorithm := by
  intro k a b r s hr hs h
  have e1 : ascii "Unsupported" = 85 :: ascii "nsupported" := by simp [ascii]
  have e2 : ascii "Raid5" = 82 :: ascii "aid5" := by simp [ascii]
  have e3 : ascii "Raid6" = 82 :: ascii "aid6" := by simp [ascii]
  have e4 : ascii "Raid5" = ascii "Raid" ++ [53] := by simp [ascii]
  have e5 : ascii "Raid6" = ascii "Raid" ++ [54] := by simp [ascii]
  have h56 {t u : Bytes} (h : ind k (ascii "Raid5" ++ t) ++ r = ind k (ascii "Raid6" ++ u) ++ s) : False := by
    rw [e4, e5] at h
    simp only [ind_append, List.append_assoc, List.append_cancel_left_eq] at h
    rw [ind_bracket (c := 53) (by decide), ind_bracket (c := 54) (by decide)] at h
    exact absurd (List.cons_eq_cons.1 h).1 (by decide)
  have h65 {t u : Bytes} (h : ind k (ascii "Raid6" ++ t) ++ r = ind k (ascii "Raid5" ++ u) ++ s) : False := by
    rw [e4, e5] at h
    simp only [ind_append, List.append_assoc, List.append_cancel_left_eq] at h
    rw [ind_bracket (c := 53) (by decide), ind_bracket (c := 54) (by decide)] at h
    exact absurd (List.cons_eq_cons.1 h).1 (by decide)
  match a, b with
  | .unsupported l m, .unsupported l' m' =>
    have h := struct_fields h
    obtain ⟨h1, h⟩ := field_unamb decimal_unamb h
    obtain ⟨h2, h⟩ := field_unamb decimal_unamb h
    exact ⟨by rw [h1, h2], fields_end h⟩
  | .unsupported l m, .raid5 b =>
    simp only [algorithm, struct, tuple1, e1, e2, List.cons_append] at h
    exact (ind_head (by decide) (by decide) (by decide) h).elim
  | .unsupported l m, .raid6 b =>
    simp only [algorithm, struct, tuple1, e1, e3, List.cons_append] at h
    exact (ind_head (by decide) (by decide) (by decide) h).elim
  | .raid5 a, .unsupported l m =>
    simp only [algorithm, struct, tuple1, e1, e2, List.cons_append] at h
    exact (ind_head (by decide) (by decide) (by decide) h).elim
  | .raid6 a, .unsupported l m =>
    simp only [algorithm, struct, tuple1, e1, e3, List.cons_append] at h
    exact (ind_head (by decide) (by decide) (by decide) h).elim
  | .raid5 a, .raid6 b =>
    simp only [algorithm, tuple1, List.append_assoc (ascii _)] at h
    exact (h56 h).elim
  | .raid6 a, .raid5 b =>
    simp only [algorithm, tuple1, List.append_assoc (ascii _)] at h
    exact (h65 h).elim
  | .raid5 a, .raid5 b =>
    obtain ⟨h1, h2⟩ := tuple1_unamb raid5_unamb "Raid5" k a b r s hr hs h
    exact ⟨by rw [h1], h2⟩
  | .raid6 a, .raid6 b =>
    obtain ⟨h1, h2⟩ := tuple1_unamb raid6_unamb "Raid6" k a b r s hr hs h
    exact ⟨by rw [h1], h2⟩

theorem sectorCount_unamb : Unamb sectorCount := tuple1_unamb decimal_unamb _
theorem sectorNumber_unamb : Unamb sectorNumber := tuple1_unamb decimal_unamb _
theorem deviceCount_unamb : Unamb deviceCount := tuple1_unamb decimal_unamb _
theorem eventCount_unamb : Unamb eventCount := tuple1_unamb decimal_unamb _
theorem role_unamb : Unamb role :=
  (tuple1_unamb decimal_unamb "MdDeviceRole").comp (f := Role.val) fun a b h => by cases a; cases b; cases h; rfl

theorem reshape_unamb : Unamb reshape := by
  intro k a b r s _ _ h
  have h := struct_fields h
  obtain ⟨h1, h⟩ := field_unamb algorithm_unamb h
  obtain ⟨h2, h⟩ := field_unamb sectorNumber_unamb h
  obtain ⟨h3, h⟩ := field_unamb deviceCount_unamb h
  obtain ⟨h4, h⟩ := field_unamb sectorCount_unamb h
  obtain ⟨h5, h⟩ := field_unamb decimal_unamb h
  refine ⟨?_, fields_end h⟩
  cases a; cases b
  simp only at h1 h2 h3 h4 h5
  rw [h1, h2, h3, h4, h5]

theorem deviceId_unamb (p : Nat → Bool) : Unamb (deviceId p) := by
  intro k a b r s _ _ h
  have h := struct_fields h
  obtain ⟨h1, h⟩ := field_unamb decimal_unamb h
  obtain ⟨h2, h⟩ := field_unamb (option_unamb (osStr_unamb p)) h
  refine ⟨?_, fields_end h⟩
  cases a; cases b
  simp only at h1 h2
  rw [h1, h2]

/-- The entries of a map as they are written: in the order of iteration. -/
theorem entries_of_map_unamb (p : Nat → Bool) {K : Type} {key : K → Bytes} (hK : Unamb key) :
    Unamb fun l : List (K × List MdDeviceId) =>
      map (l.map fun e => (key e.1, list (e.2.map (deviceId p)))) :=
  map_unamb (P := key) (Q := fun l : List MdDeviceId => list (l.map (deviceId p))) hK
    (list_unamb (P := deviceId p) (deviceId_unamb p))

end Debug
end MdRecover
