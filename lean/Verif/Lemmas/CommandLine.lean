import Verif.Model.CommandLine
import Verif.Spec.CommandLine

/-! Lemmas for the command line. -/

namespace MdRecover
open MdSpec MdSpec.CommandLine

theorem Word.of_value {w : Bytes} : Word.of w = .value ↔ Value w := by
  have hl : ∀ v, Word.outputValue v ≠ .value := by
    intro v; unfold Word.outputValue; split <;> simp
  constructor
  · intro h
    unfold Word.of at h
    split at h
    · cases h
    · exact ⟨by simp, .inl rfl⟩
    · unfold Word.long at h
      exfalso
      revert h
      repeat' split
      all_goals first | (intro h; exact hl _ h) | simp
    · unfold Word.short at h
      exfalso
      revert h
      split
      all_goals first | (intro h; exact hl _ h) | simp
    · rename_i h0 h1 h2 h3
      match w with
      | [] => exact absurd rfl h0
      | c :: r =>
        refine ⟨by simp, .inr ?_⟩
        intro e
        exact h3 r (by rw [Option.some.inj e]; rfl)
  · rintro ⟨h0, h | h⟩
    · subst h; rfl
    · match w, h0, h with
      | c :: r, _, h =>
        have hc : c ≠ 45 := fun e => h (by rw [e]; rfl)
        unfold Word.of
        split
        · rename_i e; cases e
        · rename_i e; simp only [List.cons.injEq] at e; exact absurd e.1 hc
        · rename_i e; simp only [List.cons.injEq] at e; exact absurd e.1 hc
        · rename_i e; simp only [List.cons.injEq] at e; exact absurd e.1 hc
        · rfl

theorem Word.outputValue_eq {v w : Bytes} : Word.outputValue v = .output w ↔ v = w ∧ v ≠ [] := by
  unfold Word.outputValue
  split
  · rename_i h; simp [h]
  · rename_i h; simp [h]

theorem Word.outputValue_or (v : Bytes) : (∃ w, Word.outputValue v = .output w) ∨ Word.outputValue v = .wrong := by
  unfold Word.outputValue
  split
  · exact .inr rfl
  · exact .inl ⟨_, rfl⟩

theorem dropWhile_head {p : UInt8 → Bool} {r v : Bytes} {c : UInt8} (h : r.dropWhile p = c :: v) :
    p c = false := by
  have := List.head?_dropWhile_not p r
  rw [h] at this
  simpa using this

/-- What a word of the grammar is, from what is made of it. -/
def Word.Means (w : Bytes) : Word → Prop
  | .value => Value w
  | .escape => w = ascii "--"
  | .outputNext => w = ascii "-o" ∨ w = ascii "--output"
  | .output v => Item [w] [] [v]
  | .help => w = ascii "--help" ∨ ascii "-h" <+: w
  | .version => w = ascii "--version" ∨ ascii "-V" <+: w
  | .wrong => True

theorem Word.means_outputValue {w v : Bytes} (h : v ≠ [] → Item [w] [] [v]) : Means w (.outputValue v) := by
  unfold outputValue
  split
  · trivial
  · rename_i h0; exact h h0

theorem Word.means_long (r : Bytes) : Means (45 :: 45 :: r) (.long r) := by
  unfold Word.long
  have happ : r.takeWhile (· ≠ 61) ++ r.dropWhile (· ≠ 61) = r := List.takeWhile_append_dropWhile
  split
  · rename_i h; subst h; rfl
  · split
    · split
      · rename_i h; subst h; exact .inl rfl
      · split
        · rename_i h; subst h; exact .inl rfl
        · split
          · rename_i h; subst h; exact .inr rfl
          · trivial
    · rename_i c v hd
      split
      · rename_i ht
        refine means_outputValue fun h0 => ?_
        have hc : c = 61 := by simpa using dropWhile_head hd
        rw [hd, ht, hc] at happ
        rw [← happ]
        exact Item.joinedLong h0
      · trivial

theorem Word.means_short (r : Bytes) : Means (45 :: r) (.short r) := by
  unfold Word.short
  split
  · exact .inr ⟨_, rfl⟩
  · exact .inr ⟨_, rfl⟩
  · exact .inl rfl
  · exact means_outputValue fun h0 => Item.joinedEquals h0
  · rename_i v h1 h2
    refine means_outputValue fun h0 => Item.joined h0 ?_
    match v, h0 with
    | c :: v, _ =>
      intro e
      exact h2 v (by rw [Option.some.inj e]; rfl)
  · trivial

theorem Word.means_of (w : Bytes) : Means w (.of w) := by
  by_cases hv : Word.of w = .value
  · rw [hv]; exact of_value.1 hv
  · revert hv
    unfold Word.of
    split
    · intro _; trivial
    · intro h; exact absurd rfl h
    · intro _; exact means_long _
    · intro _; exact means_short _
    · intro h; exact absurd rfl h

/-! ### Words of the grammar -/

theorem Word.of_joined {v : Bytes} (h0 : v ≠ []) (h : v.head? ≠ (ascii "=").head?) :
    Word.of (ascii "-o" ++ v) = .output v := by
  match v, h0, h with
  | c :: v, _, h =>
    have hc : c ≠ 61 := fun e => h (by rw [e]; rfl)
    have e1 : Word.of (ascii "-o" ++ c :: v) = Word.short (111 :: c :: v) := rfl
    rw [e1]
    unfold Word.short
    split
    · rename_i e; simp at e
    · rename_i e; simp at e
    · rename_i e; simp at e
    · rename_i e; simp only [List.cons.injEq] at e; exact absurd e.2.1 hc
    · rename_i e
      simp only [List.cons.injEq, true_and] at e
      subst e
      exact outputValue_eq.2 ⟨rfl, by simp⟩
    · rename_i h1 h2 h3 h4 h5
      exact absurd rfl (h5 (c :: v))

theorem Word.of_joinedEquals {v : Bytes} (h0 : v ≠ []) : Word.of (ascii "-o=" ++ v) = .output v :=
  outputValue_eq.2 ⟨rfl, h0⟩

theorem Word.of_joinedLong {v : Bytes} (h0 : v ≠ []) : Word.of (ascii "--output=" ++ v) = .output v :=
  outputValue_eq.2 ⟨rfl, h0⟩

theorem parseArgs_value {w : Bytes} (h : Word.of w = .value) (d o ws : List Bytes) :
    parseArgs d o (w :: ws) = parseArgs (d ++ [w]) o ws := by
  rw [parseArgs.eq_def]; simp only [h]

theorem parseArgs_output {w v : Bytes} (h : Word.of w = .output v) (d o ws : List Bytes) :
    parseArgs d o (w :: ws) = parseArgs d (o ++ [v]) ws := by
  rw [parseArgs.eq_def]; simp only [h]

theorem parseArgs_item {w d1 o1 : List Bytes} (h : Item w d1 o1) (d o rest : List Bytes) :
    parseArgs d o (w ++ rest) = parseArgs (d ++ d1) (o ++ o1) rest := by
  cases h with
  | device h =>
    simp only [List.cons_append, List.nil_append, List.append_nil, parseArgs_value (Word.of_value.2 h)]
  | next h =>
    simp only [List.cons_append, List.nil_append, List.append_nil, parseArgs, Word.of_value.2 h,
      show Word.of (ascii "-o") = .outputNext from rfl, if_true]
  | nextLong h =>
    simp only [List.cons_append, List.nil_append, List.append_nil, parseArgs, Word.of_value.2 h,
      show Word.of (ascii "--output") = .outputNext from rfl, if_true]
  | joined h0 h =>
    simp only [List.cons_append, List.nil_append, List.append_nil, parseArgs_output (Word.of_joined h0 h)]
  | joinedEquals h0 =>
    simp only [List.cons_append, List.nil_append, List.append_nil, parseArgs_output (Word.of_joinedEquals h0)]
  | joinedLong h0 =>
    simp only [List.cons_append, List.nil_append, List.append_nil, parseArgs_output (Word.of_joinedLong h0)]

theorem parseArgs_items {ws d1 o1 : List Bytes} (h : Items ws d1 o1) (d o rest : List Bytes) :
    parseArgs d o (ws ++ rest) = parseArgs (d ++ d1) (o ++ o1) rest := by
  induction h generalizing d o with
  | none => simp
  | item h _ ih => rw [List.append_assoc, parseArgs_item h, ih, List.append_assoc, List.append_assoc]

theorem any_isEmpty {l : List Bytes} : l.any List.isEmpty = true ↔ [] ∈ l := by
  rw [List.any_eq_true]
  constructor
  · rintro ⟨x, hx, h⟩
    rw [List.isEmpty_iff] at h
    exact h ▸ hx
  · intro h; exact ⟨[], h, rfl⟩

/-- What may follow the items found so far. -/
def Outcome (d o args : List Bytes) : Parsed → Prop
  | .options d' o' => ∃ d1 o1, Complete args d1 o1 ∧ d' = d ++ d1 ∧ o' = o ++ o1
  | .help => AsksHelp args
  | .version => AsksVersion args
  | .usage => True

theorem Outcome.item {w d1 o1 ws d o : List Bytes} (hi : Item w d1 o1) {r : Parsed}
    (h : Outcome (d ++ d1) (o ++ o1) ws r) : Outcome d o (w ++ ws) r := by
  cases r with
  | options d' o' =>
    obtain ⟨d2, o2, h, rfl, rfl⟩ := h
    refine ⟨d1 ++ d2, o1 ++ o2, ?_, by rw [List.append_assoc], by rw [List.append_assoc]⟩
    cases h with
    | items h => exact .items (.item hi h)
    | escaped h hr =>
      rw [← List.append_assoc, ← List.append_assoc]
      exact .escaped (.item hi h) hr
  | help =>
    obtain ⟨ws', d', o', x, rest, rfl, h, hx⟩ := h
    exact ⟨w ++ ws', _, _, x, rest, by rw [List.append_assoc], .item hi h, hx⟩
  | version =>
    obtain ⟨ws', d', o', x, rest, rfl, h, hx⟩ := h
    exact ⟨w ++ ws', _, _, x, rest, by rw [List.append_assoc], .item hi h, hx⟩
  | usage => trivial

theorem parseArgs_outcome (n : Nat) : ∀ (d o args : List Bytes), args.length ≤ n →
    Outcome d o args (parseArgs d o args) := by
  induction n with
  | zero =>
    intro d o args h
    rw [List.length_eq_zero_iff.1 (Nat.le_zero.1 h)]
    exact ⟨[], [], .items .none, by simp, by simp⟩
  | succ n ih =>
    intro d o args hn
    match args with
    | [] => exact ⟨[], [], .items .none, by simp, by simp⟩
    | w :: ws =>
      have hm := Word.means_of w
      have hn' : ws.length ≤ n := by simp at hn; exact hn
      rw [parseArgs.eq_def]
      simp only
      revert hm
      cases hw : Word.of w with
      | value =>
        intro hm
        have := ih (d ++ [w]) o ws hn'
        exact Outcome.item (Item.device hm) (by rw [List.append_nil]; exact this)
      | escape =>
        intro hm
        simp only
        split
        · trivial
        · rename_i h
          have hm' : w = ascii "--" := hm
          subst hm'
          refine ⟨ws, [], ?_, rfl, by simp⟩
          have := Complete.escaped Items.none (rest := ws) (fun hr => h (any_isEmpty.2 hr))
          simpa using this
      | output v =>
        intro hm
        have := ih d (o ++ [v]) ws hn'
        exact Outcome.item (w := [w]) hm (by rw [List.append_nil]; exact this)
      | outputNext =>
        intro hm
        simp only
        match ws, hn' with
        | [], _ => trivial
        | v :: ws', hn' =>
          simp only
          split
          · rename_i hv
            have := ih d (o ++ [v]) ws' (by simp at hn'; omega)
            have hm' : w = ascii "-o" ∨ w = ascii "--output" := hm
            rcases hm' with rfl | rfl
            · exact Outcome.item (Item.next (Word.of_value.1 hv)) (by rw [List.append_nil]; exact this)
            · exact Outcome.item (Item.nextLong (Word.of_value.1 hv)) (by rw [List.append_nil]; exact this)
          · trivial
      | help => intro hm; exact ⟨[], [], [], w, ws, rfl, .none, hm⟩
      | version => intro hm; exact ⟨[], [], [], w, ws, rfl, .none, hm⟩
      | wrong => intro _; trivial

end MdRecover
