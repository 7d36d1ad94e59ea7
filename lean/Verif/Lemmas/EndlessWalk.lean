import Verif.Lemmas.Endless

/-! The walk through an extent tree, apart from the device. -/

namespace MdRecover
open MdSpec

namespace Walk

/-- An entry of the stack. -/
inductive Frame where
  | tree (node : Bytes) (pos : Nat)
  | extent (e : Bytes) (pos : Nat)

open Classical in
/-- One round on a device that does not fail: `true` with a block, `false` without. -/
noncomputable def walk (c : Bytes) (bs : Nat) : List Frame × Nat → Option (Bool × List Frame × Nat)
  | ([], _) => none
  | (.extent e pos :: rest, p) =>
    if pos < le e 4 2 % 0x8000 then some (true, .extent e (pos + 1) :: rest, p + 1) else some (false, rest, p)
  | (.tree n pos :: rest, p) =>
    if nodeEntries n ≤ pos then some (false, rest, p)
    else if NodeFits n ∧ entryFirst (nodeEntry n pos) = p then
      if nodeDepth n = 0 then some (false, .extent (nodeEntry n pos) 0 :: .tree n (pos + 1) :: rest, p)
      else if BlockInside c bs (indexChild (nodeEntry n pos)) then
        some (false, .tree (blockOf c bs (indexChild (nodeEntry n pos))) 0 :: .tree n (pos + 1) :: rest, p)
      else none
    else none

/-- So many rounds, of which so many with a block. -/
inductive Run (c : Bytes) (bs : Nat) : Nat → Nat → List Frame × Nat → List Frame × Nat → Prop where
  | refl (a : List Frame × Nat) : Run c bs 0 0 a a
  | silent (n d : Nat) (a b e : List Frame × Nat) : walk c bs a = some (false, b) → Run c bs n d b e →
      Run c bs (n + 1) d a e
  | data (n d : Nat) (a b e : List Frame × Nat) : walk c bs a = some (true, b) → Run c bs n d b e →
      Run c bs (n + 1) (d + 1) a e

/-- The rounds without a block come to an end. -/
def Ends (c : Bytes) (bs : Nat) (a : List Frame × Nat) : Prop :=
  ∃ k b, Run c bs k 0 a b ∧ ∀ b', walk c bs b ≠ some (false, b')

variable {c : Bytes} {bs : Nat}

theorem Run.trans {n d m e : Nat} {x y z : List Frame × Nat} (h : Run c bs n d x y) (h' : Run c bs m e y z) :
    Run c bs (n + m) (d + e) x z := by
  induction h with
  | refl => rwa [Nat.zero_add, Nat.zero_add]
  | silent n d a b _ h1 _ ih =>
    rw [Nat.add_right_comm]
    exact .silent _ _ _ _ _ h1 (ih h')
  | data n d a b _ h1 _ ih =>
    rw [Nat.add_right_comm, Nat.add_right_comm d]
    exact .data _ _ _ _ _ h1 (ih h')

theorem Run.one {a b : List Frame × Nat} (h : walk c bs a = some (false, b)) : Run c bs 1 0 a b :=
  .silent _ _ _ _ _ h (.refl _)

/-- There is only one walk. -/
theorem Run.split {n d k e : Nat} {x y z : List Frame × Nat} (h : Run c bs n d x y) (h' : Run c bs (n + k) e x z) :
    ∃ e', Run c bs k e' y z ∧ e = d + e' := by
  induction h generalizing e with
  | refl => exact ⟨e, by rwa [Nat.zero_add] at h', by omega⟩
  | silent n d a b _ h1 _ ih =>
    rw [Nat.add_right_comm] at h'
    cases h' with
    | silent _ _ _ b' _ h2 h3 =>
      rw [h1] at h2
      cases h2
      exact ih h3
    | data _ _ _ b' _ h2 h3 => rw [h1] at h2; cases h2
  | data n d a b _ h1 _ ih =>
    rw [Nat.add_right_comm] at h'
    cases h' with
    | silent _ _ _ b' _ h2 h3 => rw [h1] at h2; cases h2
    | data _ _ _ b' _ h2 h3 =>
      rw [h1] at h2
      cases h2
      obtain ⟨e', h4, h5⟩ := ih h3
      exact ⟨e', h4, by omega⟩

theorem Ends.of_run {k : Nat} {a b : List Frame × Nat} (h : Run c bs k 0 a b) (h' : Ends c bs b) : Ends c bs a := by
  obtain ⟨m, z, h1, h2⟩ := h'
  exact ⟨_, z, h.trans h1, h2⟩

theorem Ends.of_none {a : List Frame × Nat} (h : walk c bs a = none) : Ends c bs a :=
  ⟨0, a, .refl _, fun b' h' => by rw [h] at h'; cases h'⟩

theorem Ends.of_data {a b : List Frame × Nat} (h : walk c bs a = some (true, b)) : Ends c bs a :=
  ⟨0, a, .refl _, fun b' h' => by rw [h] at h'; cases h'⟩

/-! ## Rounds, one by one -/

theorem walk_done {n : Bytes} {pos p : Nat} {rest : List Frame} (h : nodeEntries n ≤ pos) :
    walk c bs (.tree n pos :: rest, p) = some (false, rest, p) := by
  unfold walk
  dsimp only
  rw [if_pos h]

theorem walk_leaf {n : Bytes} {pos p : Nat} {rest : List Frame} (h : pos < nodeEntries n) (hf : NodeFits n)
    (he : entryFirst (nodeEntry n pos) = p) (hd : nodeDepth n = 0) :
    walk c bs (.tree n pos :: rest, p) =
      some (false, .extent (nodeEntry n pos) 0 :: .tree n (pos + 1) :: rest, p) := by
  unfold walk
  dsimp only
  rw [if_neg (by omega), if_pos ⟨hf, he⟩, if_pos hd]

theorem walk_branch {n : Bytes} {pos p : Nat} {rest : List Frame} (h : pos < nodeEntries n) (hf : NodeFits n)
    (he : entryFirst (nodeEntry n pos) = p) (hd : nodeDepth n ≠ 0) (hb : BlockInside c bs (indexChild (nodeEntry n pos))) :
    walk c bs (.tree n pos :: rest, p) =
      some (false, .tree (blockOf c bs (indexChild (nodeEntry n pos))) 0 :: .tree n (pos + 1) :: rest, p) := by
  unfold walk
  dsimp only
  rw [if_neg (by omega), if_pos ⟨hf, he⟩, if_neg hd, if_pos hb]

theorem walk_block {e : Bytes} {pos p : Nat} {rest : List Frame} (h : pos < le e 4 2 % 0x8000) :
    walk c bs (.extent e pos :: rest, p) = some (true, .extent e (pos + 1) :: rest, p + 1) := by
  unfold walk
  dsimp only
  rw [if_pos h]

theorem walk_used {e : Bytes} {pos p : Nat} {rest : List Frame} (h : le e 4 2 % 0x8000 ≤ pos) :
    walk c bs (.extent e pos :: rest, p) = some (false, rest, p) := by
  unfold walk
  dsimp only
  rw [if_neg (by omega)]

/-- The rounds on a tree, the other way round. -/
theorem walk_tree_cases (n : Bytes) (pos p : Nat) (rest : List Frame) (h : pos < nodeEntries n) :
    walk c bs (.tree n pos :: rest, p) = none ∨
    (NodeFits n ∧ entryFirst (nodeEntry n pos) = p ∧
      (nodeDepth n = 0 ∨ (nodeDepth n ≠ 0 ∧ BlockInside c bs (indexChild (nodeEntry n pos))))) := by
  by_cases h1 : NodeFits n ∧ entryFirst (nodeEntry n pos) = p
  · by_cases h2 : nodeDepth n = 0
    · exact .inr ⟨h1.1, h1.2, .inl h2⟩
    · by_cases h3 : BlockInside c bs (indexChild (nodeEntry n pos))
      · exact .inr ⟨h1.1, h1.2, .inr ⟨h2, h3⟩⟩
      · left
        unfold walk
        dsimp only
        rw [if_neg (by omega), if_pos h1, if_neg h2, if_neg h3]
  · left
    unfold walk
    dsimp only
    rw [if_neg (by omega), if_neg h1]

/-! ## From the tree to the walk -/

theorem run_extent {e : Bytes} {rest : List Frame} (k : Nat) : ∀ (pos p : Nat), pos + k = le e 4 2 % 0x8000 →
    Run c bs (k + 1) k (.extent e pos :: rest, p) (rest, p + k) := by
  induction k with
  | zero => exact fun pos p h => .one (walk_used (by omega))
  | succ k ih =>
    intro pos p h
    have := ih (pos + 1) (p + 1) (by omega)
    rw [Nat.add_right_comm p 1 k] at this
    exact .data _ _ _ _ _ (walk_block (by omega)) this

theorem spans_run {node : Bytes} {i p q : Nat} (h : Spans c bs node i p q) : p ≤ q ∧ ∀ rest, ∃ n,
    Run c bs n (q - p) (.tree node 0 :: rest, p) (.tree node i :: rest, q) := by
  induction h with
  | none node p => exact ⟨Nat.le_refl _, fun rest => ⟨0, by rw [Nat.sub_self]; exact .refl _⟩⟩
  | extent node i p q _ hd hf hi he ih =>
    obtain ⟨h1, h2⟩ := ih
    refine ⟨by omega, fun rest => ?_⟩
    obtain ⟨n, h3⟩ := h2 rest
    have h4 := (h3.trans (.one (walk_leaf hi hf he hd))).trans
      (run_extent (c := c) (bs := bs) (le (nodeEntry node i) 4 2 % 0x8000) 0 q (Nat.zero_add _))
    rw [show q - p + 0 + le (nodeEntry node i) 4 2 % 0x8000 = q + le (nodeEntry node i) 4 2 % 0x8000 - p by omega] at h4
    exact ⟨_, h4⟩
  | index node i p q q' _ hd hf hi he hb _ ih ih' =>
    obtain ⟨h1, h2⟩ := ih
    obtain ⟨h1', h2'⟩ := ih'
    refine ⟨by omega, fun rest => ?_⟩
    obtain ⟨n, h3⟩ := h2 rest
    obtain ⟨n', h3'⟩ := h2' (.tree node (i + 1) :: rest)
    have h4 := ((h3.trans (.one (walk_branch hi hf he hd hb))).trans h3').trans (.one (walk_done (Nat.le_refl _)))
    rw [show q - p + 0 + (q' - q) + 0 = q' - p by omega] at h4
    exact ⟨_, h4⟩

theorem leads_run {a b : Bytes × Nat} (h : LeadsTo c bs a b) : a.2 ≤ b.2 ∧ ∀ rest, ∃ n rest', 0 < n ∧
    Run c bs n (b.2 - a.2) (.tree a.1 0 :: rest, a.2) (.tree b.1 0 :: rest', b.2) := by
  obtain ⟨hd, hf, i, hi, hs, he, hb, hx⟩ := h
  obtain ⟨h1, h2⟩ := spans_run hs
  refine ⟨h1, fun rest => ?_⟩
  obtain ⟨n, h3⟩ := h2 rest
  rw [hx]
  exact ⟨_, _, by omega, h3.trans (.one (walk_branch hi hf he hd hb))⟩

theorem trans_run {a b : Bytes × Nat} (h : Relation.TransGen (LeadsTo c bs) a b) : a.2 ≤ b.2 ∧ ∀ rest, ∃ n rest', 0 < n ∧
    Run c bs n (b.2 - a.2) (.tree a.1 0 :: rest, a.2) (.tree b.1 0 :: rest', b.2) := by
  induction h with
  | single h => exact leads_run h
  | @tail b e _ h ih =>
    obtain ⟨h1, h2⟩ := ih
    obtain ⟨h3, h4⟩ := leads_run h
    refine ⟨by omega, fun rest => ?_⟩
    obtain ⟨n, r1, h5, h6⟩ := h2 rest
    obtain ⟨m, r2, h7, h8⟩ := h4 r1
    refine ⟨n + m, r2, by omega, ?_⟩
    rw [show e.2 - a.2 = b.2 - a.2 + (e.2 - b.2) by omega]
    exact h6.trans h8

theorem reached_run {a b : Bytes × Nat} (h : Relation.ReflTransGen (LeadsTo c bs) a b) : a.2 ≤ b.2 ∧ ∀ rest, ∃ n rest',
    Run c bs n (b.2 - a.2) (.tree a.1 0 :: rest, a.2) (.tree b.1 0 :: rest', b.2) := by
  rcases Relation.reflTransGen_iff_eq_or_transGen.mp h with rfl | h
  · exact ⟨Nat.le_refl _, fun rest => ⟨0, rest, by rw [Nat.sub_self]; exact .refl _⟩⟩
  · obtain ⟨h1, h2⟩ := trans_run h
    refine ⟨h1, fun rest => ?_⟩
    obtain ⟨n, r, -, h3⟩ := h2 rest
    exact ⟨n, r, h3⟩

/-- A circle does not end. -/
theorem circle_endless {x : Bytes} {p : Nat} (h : Relation.TransGen (LeadsTo c bs) (x, p) (x, p)) (rest : List Frame) :
    ¬ Ends c bs (.tree x 0 :: rest, p) := by
  have hlong : ∀ k, ∃ n rest', k ≤ n ∧ Run c bs n 0 (.tree x 0 :: rest, p) (.tree x 0 :: rest', p) := by
    intro k
    induction k with
    | zero => exact ⟨0, rest, Nat.le_refl _, .refl _⟩
    | succ k ih =>
      obtain ⟨n, r, h1, h2⟩ := ih
      obtain ⟨m, r', h3, h4⟩ := (trans_run h).2 r
      refine ⟨n + m, r', by omega, ?_⟩
      have := h2.trans h4
      rwa [show 0 + (p - p) = 0 by omega] at this
  rintro ⟨k, b, h1, h2⟩
  obtain ⟨n, r, h3, h4⟩ := hlong (k + 1)
  obtain ⟨l, rfl⟩ : ∃ l, n = k + (l + 1) := ⟨n - k - 1, by omega⟩
  obtain ⟨e', h5, h6⟩ := h1.split h4
  cases h5 with
  | silent _ _ _ b' _ h7 => exact h2 b' h7
  | data => omega

/-! ## From the walk to the tree -/

theorem _root_.MdSpec.Spans.le_entries {node : Bytes} {i p q : Nat} (h : Spans c bs node i p q) : i ≤ nodeEntries node := by
  cases h with
  | none => exact Nat.zero_le _
  | extent => assumption
  | index => assumption

/-- A tree on top from which there is no endless way at block `p`: the walk ends, or the tree, which is empty, is
removed. -/
theorem acc_ends {p : Nat} {x : Bytes} (hx : Acc (fun b a => LeadsTo c bs (a, p) (b, p)) x) : ∀ rest,
    Ends c bs (.tree x 0 :: rest, p) ∨
      (Spans c bs x (nodeEntries x) p p ∧ ∃ k, Run c bs k 0 (.tree x 0 :: rest, p) (rest, p)) := by
  induction hx with
  | intro x _ ih =>
    intro rest
    have key : ∀ k, k ≤ nodeEntries x → Ends c bs (.tree x 0 :: rest, p) ∨
        (Spans c bs x k p p ∧ ∃ n, Run c bs n 0 (.tree x 0 :: rest, p) (.tree x k :: rest, p)) := by
      intro k hk
      induction k with
      | zero => exact .inr ⟨.none _ _, 0, .refl _⟩
      | succ k ihk =>
        rcases ihk (by omega) with h | ⟨h1, n, h2⟩
        · exact .inl h
        rcases walk_tree_cases (c := c) (bs := bs) x k p rest (by omega) with h | ⟨hf, he, hd | ⟨hd, hb⟩⟩
        · exact .inl (.of_run h2 (.of_none h))
        · have h3 := h2.trans (.one (walk_leaf (rest := rest) (by omega) hf he hd))
          by_cases hl : 0 < le (nodeEntry x k) 4 2 % 0x8000
          · exact .inl (.of_run h3 (.of_data (walk_block hl)))
          · have h4 := Spans.extent x k p p h1 hd hf (by omega) he
            rw [show p + le (nodeEntry x k) 4 2 % 0x8000 = p by omega] at h4
            exact .inr ⟨h4, _, h3.trans (.one (walk_used (by omega)))⟩
        · have h3 := h2.trans (.one (walk_branch (rest := rest) (by omega) hf he hd hb))
          rcases ih _ ⟨hd, hf, k, Nat.lt_of_succ_le hk, h1, he, hb, rfl⟩ (.tree x (k + 1) :: rest) with h4 | ⟨h4, m, h5⟩
          · exact .inl (.of_run h3 h4)
          · exact .inr ⟨.index x k p p p h1 hd hf (by omega) he hb h4, _, h3.trans h5⟩
    rcases key _ (Nat.le_refl _) with h | ⟨h1, n, h2⟩
    · exact .inl h
    · exact .inr ⟨h1, _, h2.trans (.one (walk_done (Nat.le_refl _)))⟩

/-- What a stack stands for: the block that comes next is `q`. -/
inductive Lies (c : Bytes) (bs : Nat) (root : Bytes) : List Frame → Nat → Prop where
  | nil (q : Nat) : Lies c bs root [] q
  | root (i q : Nat) : Spans c bs root i 0 q → Lies c bs root [.tree root i] q
  | tree (a : Bytes) (i j q q' : Nat) (rest : List Frame) : Lies c bs root (.tree a i :: rest) q → nodeDepth a ≠ 0 →
      NodeFits a → i < nodeEntries a → entryFirst (nodeEntry a i) = q → BlockInside c bs (indexChild (nodeEntry a i)) →
      Spans c bs (blockOf c bs (indexChild (nodeEntry a i))) j q q' →
      Lies c bs root (.tree (blockOf c bs (indexChild (nodeEntry a i))) j :: .tree a (i + 1) :: rest) q'
  | extent (a : Bytes) (i j q : Nat) (rest : List Frame) : Lies c bs root (.tree a i :: rest) q → nodeDepth a = 0 →
      NodeFits a → i < nodeEntries a → entryFirst (nodeEntry a i) = q → j ≤ le (nodeEntry a i) 4 2 % 0x8000 →
      Lies c bs root (.extent (nodeEntry a i) j :: .tree a (i + 1) :: rest) (q + j)

variable {root : Bytes}

theorem Lies.reached {a : Bytes} {i q : Nat} {rest : List Frame} (h : Lies c bs root (.tree a i :: rest) q) :
    ∃ p, Relation.ReflTransGen (LeadsTo c bs) (root, 0) (a, p) ∧ Spans c bs a i p q := by
  obtain ⟨st, hst⟩ : ∃ st, .tree a i :: rest = st := ⟨_, rfl⟩
  rw [hst] at h
  induction h generalizing a i rest with
  | nil => cases hst
  | root j q hs =>
    cases hst
    exact ⟨0, .refl, hs⟩
  | tree b k j q q' rest' _ hd hf hk he hb hs ih =>
    cases hst
    obtain ⟨p, h1, h2⟩ := ih rfl
    exact ⟨q, .tail h1 ⟨hd, hf, k, hk, h2, he, hb, rfl⟩, hs⟩
  | extent => cases hst

theorem Lies.advance {a : Bytes} {i q q' : Nat} {rest : List Frame} (h : Lies c bs root (.tree a i :: rest) q)
    (hs : ∀ p, Spans c bs a i p q → Spans c bs a (i + 1) p q') : Lies c bs root (.tree a (i + 1) :: rest) q' := by
  cases h with
  | root _ _ h => exact .root _ _ (hs 0 h)
  | tree b k _ q0 _ rest' h1 hd hf hk he hb h2 => exact .tree b k _ q0 _ rest' h1 hd hf hk he hb (hs q0 h2)

theorem Lies.step {a b : List Frame × Nat} {d : Bool} (h : Lies c bs root a.1 a.2) (hw : walk c bs a = some (d, b)) :
    Lies c bs root b.1 b.2 := by
  obtain ⟨st, q⟩ := a
  match st, h with
  | [], _ => unfold walk at hw; cases hw
  | .extent e pos :: rest, h =>
    cases h with
    | extent a i _ q rest' h1 hd hf hi he hj =>
      by_cases hl : pos < le (nodeEntry a i) 4 2 % 0x8000
      · rw [walk_block hl] at hw
        cases hw
        exact .extent a i (pos + 1) q rest' h1 hd hf hi he hl
      · rw [walk_used (by omega)] at hw
        cases hw
        refine h1.advance fun p hp => ?_
        rw [show pos = le (nodeEntry a i) 4 2 % 0x8000 by omega]
        exact .extent a i p q hp hd hf hi he
  | .tree n pos :: rest, h =>
    by_cases hp : nodeEntries n ≤ pos
    · rw [walk_done hp] at hw
      cases hw
      cases h with
      | root => exact .nil _
      | tree b k _ q0 _ rest' h1 hd hf hk he hb h2 =>
        refine h1.advance fun p h3 => .index b k p q0 _ h3 hd hf hk he hb ?_
        rwa [Nat.le_antisymm h2.le_entries hp] at h2
    · rcases walk_tree_cases (c := c) (bs := bs) n pos q rest (by omega) with h3 | ⟨hf, he, hd | ⟨hd, hb⟩⟩
      · rw [h3] at hw; cases hw
      · rw [walk_leaf (by omega) hf he hd] at hw
        cases hw
        exact .extent n pos 0 q rest h hd hf (by omega) he (Nat.zero_le _)
      · rw [walk_branch (by omega) hf he hd hb] at hw
        cases hw
        exact .tree n pos 0 q q rest h hd hf (by omega) he hb (.none _ _)

theorem Lies.run {n d : Nat} {a b : List Frame × Nat} (h : Run c bs n d a b) (hl : Lies c bs root a.1 a.2) :
    Lies c bs root b.1 b.2 := by
  induction h with
  | refl => exact hl
  | silent _ _ _ _ _ h1 _ ih => exact ih (hl.step h1)
  | data _ _ _ _ _ h1 _ ih => exact ih (hl.step h1)

/-- Without an endless way from any node come to at block `p`, the walk ends. -/
theorem Lies.ends {p : Nat} (hacc : ∀ x, Relation.ReflTransGen (LeadsTo c bs) (root, 0) (x, p) →
      Acc (fun b a => LeadsTo c bs (a, p) (b, p)) x) {st : List Frame} (h : Lies c bs root st p) :
    Ends c bs (st, p) := by
  obtain ⟨l, hl⟩ : ∃ l, st.length = l := ⟨_, rfl⟩
  induction l generalizing st with
  | zero =>
    rw [List.length_eq_zero_iff.mp hl]
    exact .of_none rfl
  | succ l ih =>
    match st, h, hl with
    | .extent e pos :: rest, h, hl =>
      by_cases hp : pos < le e 4 2 % 0x8000
      · exact .of_data (walk_block hp)
      · have hw := walk_used (c := c) (bs := bs) (e := e) (pos := pos) (p := p) (rest := rest) (by omega)
        exact .of_run (.one hw) (ih (h.step (a := (_, p)) hw) (by simpa using hl))
    | .tree a i :: rest, h, hl =>
      have key : ∀ k, i + k ≤ nodeEntries a → Ends c bs (.tree a i :: rest, p) ∨
          ∃ n, Run c bs n 0 (.tree a i :: rest, p) (.tree a (i + k) :: rest, p) := by
        intro k hk
        induction k with
        | zero => exact .inr ⟨0, .refl _⟩
        | succ k ihk =>
          rcases ihk (by omega) with h1 | ⟨n, h1⟩
          · exact .inl h1
          have h2 := Lies.run h1 h
          rcases walk_tree_cases (c := c) (bs := bs) a (i + k) p rest (by omega) with h3 | ⟨hf, he, hd | ⟨hd, hb⟩⟩
          · exact .inl (.of_run h1 (.of_none h3))
          · have h3 := h1.trans (.one (walk_leaf (rest := rest) (by omega) hf he hd))
            by_cases hl : 0 < le (nodeEntry a (i + k)) 4 2 % 0x8000
            · exact .inl (.of_run h3 (.of_data (walk_block hl)))
            · exact .inr ⟨_, h3.trans (.one (walk_used (by omega)))⟩
          · have h3 := h1.trans (.one (walk_branch (rest := rest) (by omega) hf he hd hb))
            obtain ⟨p0, h4, h5⟩ := Lies.reached h2
            rcases acc_ends (hacc _ (.tail h4 ⟨hd, hf, i + k, Nat.lt_of_succ_le hk, h5, he, hb, rfl⟩)) (.tree a (i + k + 1) :: rest)
              with h6 | ⟨-, m, h6⟩
            · exact .inl (.of_run h3 h6)
            · exact .inr ⟨_, h3.trans h6⟩
      have hi : i ≤ nodeEntries a := by
        obtain ⟨p0, -, h1⟩ := Lies.reached h
        exact h1.le_entries
      rcases key (nodeEntries a - i) (by omega) with h1 | ⟨n, h1⟩
      · exact h1
      · have h2 := h1.trans (.one (walk_done (rest := rest) (p := p) (by omega)))
        exact .of_run h2 (ih (Lies.run h2 h) (by simpa using hl))

end Walk

variable [Build]

namespace Ext4File
variable {W D : Type} {F : Prop} {dev : StreamDev W D} {G : W → Prop} {Is : D → Bytes → Prop}
  {At : W → D → Nat → Prop}
open Walk

/-- An entry of the stack, without what does not matter. -/
def frame : StackEntry → Frame
  | .tree t pos => .tree t.node.storage pos
  | .extent e pos => .extent e.storage pos

/-- The state of an open file, without what does not matter. -/
def frames (s : W × Ext4File D) : List Frame × Nat := (s.2.stack.map frame, s.2.blockPos)

section
variable (hv : VolumeSpec False dev G Is At) {c : Bytes} (hc : c.length < U64) {i : Inode} {buf : Bytes}
  (hb : blockSizeOf (sbOf c) ≤ buf.length)
include hv hc hb

/-- One round is a round of the walk. -/
theorem step_walk {s s' : W × Ext4File D} {r : Res (Option (Nat × Bytes))} (hi : Inv Is G c (fun _ => True) i s)
    (h : step dev buf s = (s', r)) :
    (walk c (blockSizeOf (sbOf c)) (frames s) = none ∧ r ≠ .ok none ∧ ∀ x, r = .ok (some x) → x.1 = 0) ∨
    (walk c (blockSizeOf (sbOf c)) (frames s) = some (false, frames s') ∧ r = .ok none) ∨
    (∃ b, walk c (blockSizeOf (sbOf c)) (frames s) = some (true, b) ∧ r ≠ .ok none ∧ b.2 = s.2.blockPos + 1 ∧
      ∀ x, r = .ok (some x) → b.1 = (frames s').1) := by
  obtain ⟨w, f⟩ := s
  have hst : StackOk (fun _ => True) f.blockPos f.stack := hi.stack
  match hs : f.stack with
  | [] =>
    rw [step_empty dev buf w f hs] at h
    cases h
    left
    unfold frames
    simp only [hs, List.map_nil]
    refine ⟨rfl, ?_, ?_⟩
    · split <;> (intro h; cases h)
    · intro x hx
      split at hx
      · cases hx; rfl
      · cases hx
  | .extent e pos :: rest =>
    rw [step_extent dev buf w f hs] at h
    have hfr : frames (w, f) = (.extent e.storage pos :: rest.map frame, f.blockPos) := by
      unfold frames; simp only [hs, List.map_cons, frame]
    rw [hfr]
    by_cases hp : e.length ≤ pos
    · rw [stepExtent_done dev buf w _ rest hp] at h
      cases h
      rw [Extent.length_eq] at hp
      rw [walk_used hp]
      exact .inr (.inl ⟨rfl, rfl⟩)
    · have hp : pos < e.length := by omega
      obtain ⟨w', fs', hG', ho', h2⟩ := stepExtent_block hv hc hi.good
        (f := { f with stack := rest }) hi.opened buf hb rest hp
      rw [Extent.length_eq] at hp
      rw [walk_block hp]
      refine .inr (.inr ⟨_, rfl, ?_⟩)
      rcases h2 with ⟨-, h2⟩ | ⟨h3, ⟨-, k, h2⟩ | ⟨-, h2⟩⟩
      · rw [h] at h2
        cases h2
        exact ⟨(fun h => nomatch h), rfl, fun x hx => nomatch hx⟩
      · rw [h] at h2
        cases h2
        exact ⟨(fun h => nomatch h), rfl, fun x hx => nomatch hx⟩
      · rw [h] at h2
        split at h2
        · cases h2
          exact ⟨(fun h => nomatch h), rfl, fun x _ => rfl⟩
        · split at h2
          · cases h2
            exact ⟨(fun h => nomatch h), rfl, fun x _ => rfl⟩
          · cases h2
            exact ⟨(fun h => nomatch h), rfl, fun x _ => rfl⟩
  | .tree t pos :: rest =>
    rw [hs] at hst
    obtain ⟨n, pos', heq, -⟩ : TreeOk (fun _ => True) (.tree t pos) := by
      rcases hst.1 with hx | ⟨_, _, _, hx, _⟩
      · exact hx
      · cases hx
    cases heq
    rw [step_tree dev buf w f hs] at h
    have hfr : frames (w, f) = (.tree n.storage pos :: rest.map frame, f.blockPos) := by
      unfold frames; simp only [hs, List.map_cons, frame, ExtentTree.node_fromInternal]
    rw [hfr]
    by_cases hp : nodeEntries n.storage ≤ pos
    · rw [stepTree_done dev w _ rest hp] at h
      cases h
      rw [walk_done hp]
      exact .inr (.inl ⟨rfl, rfl⟩)
    have hp : pos < nodeEntries n.storage := by omega
    by_cases hf : NodeFits n.storage
    rotate_left
    · rw [stepTree_panics dev w _ rest hp hf] at h
      cases h
      rcases walk_tree_cases (c := c) (bs := blockSizeOf (sbOf c)) n.storage pos f.blockPos (rest.map frame) hp
        with h1 | ⟨h1, -⟩
      · exact .inl ⟨h1, (fun h => nomatch h), fun x hx => nomatch hx⟩
      · exact absurd h1 hf
    by_cases hd : nodeDepth n.storage = 0
    · rw [stepTree_leaf dev w _ rest hp hf hd] at h
      by_cases he : entryFirst (nodeEntry n.storage pos) = f.blockPos
      · rw [if_pos he] at h
        cases h
        rw [walk_leaf hp hf he hd]
        refine .inr (.inl ⟨?_, rfl⟩)
        unfold frames
        simp only [List.map_cons, frame, ExtentTree.node_fromInternal]
      · rw [if_neg he] at h
        cases h
        rcases walk_tree_cases (c := c) (bs := blockSizeOf (sbOf c)) n.storage pos f.blockPos (rest.map frame) hp
          with h1 | ⟨-, h1, -⟩
        · exact .inl ⟨h1, (fun h => nomatch h), fun x hx => nomatch hx⟩
        · exact absurd h1 he
    · obtain ⟨w', fs', hG', ho', h1⟩ := stepTree_branch hv hc hi.good
        (f := { f with stack := rest }) hi.opened rest hp hf hd
      have hnone : ¬ (entryFirst (nodeEntry n.storage pos) = f.blockPos ∧
          BlockInside c (blockSizeOf (sbOf c)) (indexChild (nodeEntry n.storage pos))) →
          walk c (blockSizeOf (sbOf c)) (.tree n.storage pos :: rest.map frame, f.blockPos) = none := by
        intro hno
        rcases walk_tree_cases (c := c) (bs := blockSizeOf (sbOf c)) n.storage pos f.blockPos (rest.map frame) hp
          with h1 | ⟨-, h1, h2 | ⟨-, h2⟩⟩
        · exact h1
        · exact absurd h2 hd
        · exact absurd ⟨h1, h2⟩ hno
      rcases h1 with ⟨he, h1⟩ | ⟨he, ⟨hx | hx, e, h1⟩ | ⟨hin, h1⟩⟩
      · rw [h] at h1
        cases h1
        exact .inl ⟨hnone fun h => he h.1, (fun h => nomatch h), fun x hx => nomatch hx⟩
      · exact hx.elim
      · rw [h] at h1
        cases h1
        exact .inl ⟨hnone fun h => hx h.2, (fun h => nomatch h), fun x hx => nomatch hx⟩
      · rw [h] at h1
        cases h1
        rw [walk_branch hp hf he hd hin]
        refine .inr (.inl ⟨?_, rfl⟩)
        unfold frames
        simp only [List.map_cons, frame, ExtentTree.fromBlock, ExtentTree.node_fromInternal]
        rfl

theorem silent_run {s s' : W × Ext4File D} (h : Silent dev buf s s') (hi : Inv Is G c (fun _ => True) i s) :
    ∃ n, Run c (blockSizeOf (sbOf c)) n 0 (frames s) (frames s') := by
  induction h with
  | refl => exact ⟨0, .refl _⟩
  | head s s' s'' h1 _ ih =>
    obtain ⟨n, h2⟩ := ih (silent_inv hv hc (closed_true _ _) hb (.single h1) hi).1
    rcases step_walk hv hc hb hi h1 with ⟨-, h3, -⟩ | ⟨h3, -⟩ | ⟨_, -, h3, -⟩
    · exact absurd rfl h3
    · exact ⟨_, .silent _ _ _ _ _ h3 h2⟩
    · exact absurd rfl h3

/-- The call ends if and only if the walk does. -/
theorem stops_iff_ends {s : W × Ext4File D} (hi : Inv Is G c (fun _ => True) i s) :
    Stops dev buf s ↔ Walk.Ends c (blockSizeOf (sbOf c)) (frames s) := by
  constructor
  · rintro ⟨s1, s2, r, h1, h2, h3⟩
    obtain ⟨n, h4⟩ := silent_run hv hc hb h1 hi
    refine ⟨n, _, h4, fun b' h5 => ?_⟩
    rcases step_walk hv hc hb (silent_inv hv hc (closed_true _ _) hb h1 hi).1 h2 with ⟨h6, -⟩ | ⟨-, h6⟩ | ⟨_, h6, -⟩
    · rw [h6] at h5; cases h5
    · exact h3 h6
    · rw [h6] at h5; cases h5
  · rintro ⟨n, b, h1, h2⟩
    induction n generalizing s with
    | zero =>
      cases h1
      rcases hr : step dev buf s with ⟨s', r⟩
      rcases step_walk hv hc hb hi hr with ⟨-, h6, -⟩ | ⟨h6, -⟩ | ⟨_, -, h6, -⟩
      · exact .of_step hr h6
      · exact absurd h6 (h2 _)
      · exact .of_step hr h6
    | succ n ih =>
      cases h1 with
      | silent _ _ _ b' _ h3 h4 =>
        rcases hr : step dev buf s with ⟨s', r⟩
        rcases step_walk hv hc hb hi hr with ⟨-, h6, -⟩ | ⟨h6, rfl⟩ | ⟨_, -, h6, -⟩
        · exact .of_step hr h6
        · rw [h6] at h3
          cases h3
          exact .of_silent (.single hr) (ih (silent_inv hv hc (closed_true _ _) hb (.single hr) hi).1 h4)
        · exact .of_step hr h6

end

/-- After calls that returned data (or had too short a buffer): the walk so far, which ends with the last block. -/
theorem calls_run (hv : VolumeSpec False dev G Is At) {c : Bytes} (hc : c.length < U64) {i : Inode}
    {s s' : W × Ext4File D} {h : List (Bytes × Res (Nat × Bytes))} (hcalls : Calls dev s h s')
    (hi : Inv Is G c (fun _ => True) i s) (hw : BlocksCounted c i.fileSizeBytes)
    (hd : ∀ x ∈ h, gotData x.2 = true ∨ x.1.length < blockSizeOf (sbOf c)) :
    ∃ n, Run c (blockSizeOf (sbOf c)) n (dataCalls h) (frames s) (frames s') ∧
      ∀ m b, Run c (blockSizeOf (sbOf c)) m (dataCalls h) (frames s) b → n ≤ m := by
  induction hcalls with
  | nil => exact ⟨0, .refl _, fun m b _ => Nat.zero_le _⟩
  | snoc s1 s2 h buf r hcalls h2 h3 ih =>
    obtain ⟨n, h4, h5⟩ := ih fun x hx => hd x (List.mem_append_left _ hx)
    obtain ⟨hi1, -⟩ := calls_inv hv hc (closed_true _ _) hcalls hi hw
    obtain ⟨hi2, hpos⟩ := returns_inv hv hc (closed_true _ _) hi1 h2 h3 hw
    have hda : dataCalls (h ++ [(buf, r)]) = dataCalls h + if gotData r then 1 else 0 := by
      unfold dataCalls
      rw [List.countP_append]
      congr 1
      simp only [List.countP_cons, List.countP_nil, Nat.zero_add]
    by_cases hb : buf.length < blockSizeOf (sbOf c)
    · obtain ⟨rfl, rfl⟩ := (returns_short hi1.opened hb).1 h2
      rw [hda]
      exact ⟨n, h4, h5⟩
    have hg : gotData r = true := by
      rcases hd (buf, r) (List.mem_append_right _ List.mem_cons_self) with h | h
      · exact h
      · exact absurd h hb
    have hb : blockSizeOf (sbOf c) ≤ buf.length := by omega
    rw [hda, hg, if_pos rfl]
    obtain ⟨s3, h6, h7⟩ := (returns_iff hi1.opened hb).1 h2
    obtain ⟨k, h8⟩ := silent_run hv hc hb h6 hi1
    obtain ⟨hi3, hp3⟩ := silent_inv hv hc (closed_true _ _) hb h6 hi1
    have h9 := h4.trans h8
    rw [Nat.add_zero] at h9
    obtain ⟨x, rfl⟩ : ∃ x, r = .ok x := by
      cases r with
      | ok x => exact ⟨x, rfl⟩
      | err => cases hg
      | panic => cases hg
    rcases step_walk hv hc hb hi3 h7 with ⟨-, -, h10⟩ | ⟨-, h10⟩ | ⟨b, h10, -, h11, h12⟩
    · have := h10 x rfl
      unfold gotData at hg
      simp only [bne_iff_ne] at hg
      exact absurd this hg
    · cases h10
    · have hbe : b = frames s2 := by
        refine Prod.ext (h12 x rfl) ?_
        rw [h11, hp3]
        rcases hpos with ⟨-, ⟨e, h13⟩ | ⟨h13, -⟩⟩ | ⟨h13, -⟩
        · cases h13
        · cases h13; cases hg
        · exact h13.symm
      rw [hbe] at h10
      refine ⟨_, h9.trans (.data 0 0 _ _ _ h10 (.refl _)), fun m b' hm => ?_⟩
      by_contra hlt
      rw [show n + k = m + (n + k - m) by omega] at h9
      obtain ⟨e', -, h14⟩ := hm.split h9
      omega

end Ext4File

end MdRecover
