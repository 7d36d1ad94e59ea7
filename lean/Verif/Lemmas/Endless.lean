import Mathlib.Order.WellFounded
import Mathlib.Data.Fintype.EquivFin
import Verif.Lemmas.Ext4FileEnd
import Verif.Spec.Endless

namespace MdRecover
open MdSpec

/-- On a volume, which has finitely many blocks, an endless way leads in a circle. -/
theorem circle {c : Bytes} {bs : Nat} {r : Bytes → Bytes → Prop} (hbs : 0 < bs)
    (hr : ∀ a b, r a b → ∃ x, BlockInside c bs x ∧ b = blockOf c bs x) {node : Bytes}
    (h : ¬ Acc (fun b a => r a b) node) :
    ∃ x, BlockInside c bs x ∧ Relation.TransGen r node (blockOf c bs x) ∧
      Relation.TransGen r (blockOf c bs x) (blockOf c bs x) := by
  obtain ⟨f, hf0, hf⟩ := not_acc_iff_exists_descending_chain.mp h
  choose g hg using fun k => hr _ _ (hf k)
  have hlt : ∀ k, g k < c.length + 1 := by
    intro k
    have h1 : g k * bs + bs ≤ c.length := (hg k).1
    have := Nat.le_mul_of_pos_right (g k) hbs
    omega
  obtain ⟨i, j, hne, he⟩ := Finite.exists_ne_map_eq_of_infinite (fun k => (⟨g k, hlt k⟩ : Fin (c.length + 1)))
  replace he : g i = g j := congrArg Fin.val he
  have hway : ∀ a k, Relation.TransGen r (f a) (f (a + k + 1)) := by
    intro a k
    induction k with
    | zero => exact .single (hf a)
    | succ k ih => exact .tail ih (hf (a + k + 1))
  wlog hij : i < j generalizing i j
  · exact this j i (Ne.symm hne) he.symm (by omega)
  refine ⟨g i, (hg i).1, ?_, ?_⟩
  · have := hway 0 i
    rwa [hf0, Nat.zero_add, (hg i).2] at this
  · have := hway (i + 1) (j - i - 1)
    rw [show i + 1 + (j - i - 1) + 1 = j + 1 by omega, (hg i).2, (hg j).2, ← he] at this
    exact this

/-- The other way round. -/
theorem not_acc_of_circle {r : Bytes → Bytes → Prop} {a b : Bytes} (h : Relation.TransGen r a b)
    (h' : Relation.TransGen r b b) : ¬ Acc (fun b a => r a b) a := by
  intro ha
  have key : ∀ x, Acc (fun b a => r a b) x → ∀ y, Relation.TransGen r x y → Relation.TransGen r y y → False := by
    intro x hx
    induction hx with
    | intro x _ ih =>
      intro y hxy hyy
      rcases Relation.TransGen.head'_iff.mp hxy with ⟨z, hxz, hzy⟩
      exact ih z hxz y (Relation.TransGen.trans_right hzy hyy) hyy
  exact key a ha b h h'

variable [Build]

namespace Ext4File
variable {W D : Type} {F : Prop} {dev : StreamDev W D} {G : W → Prop} {Is : D → Bytes → Prop}
  {At : W → D → Nat → Prop}

/-- The call ends, perhaps with a panic. -/
def Stops (dev : StreamDev W D) (buf : Bytes) (s : W × Ext4File D) : Prop :=
  ∃ s1 s2 r, Silent dev buf s s1 ∧ step dev buf s1 = (s2, r) ∧ r ≠ .ok none

/-- Rounds of the loop after which it goes on, counted. -/
inductive Rounds (dev : StreamDev W D) (buf : Bytes) : Nat → W × Ext4File D → W × Ext4File D → Prop where
  | refl (s : W × Ext4File D) : Rounds dev buf 0 s s
  | head (k : Nat) (s s' s'' : W × Ext4File D) : step dev buf s = (s', .ok none) → Rounds dev buf k s' s'' →
      Rounds dev buf (k + 1) s s''

theorem Stops.of_silent {buf : Bytes} {s s1 : W × Ext4File D} (h : Silent dev buf s s1)
    (h1 : Stops dev buf s1) : Stops dev buf s := by
  obtain ⟨s2, s3, r, h2, h3⟩ := h1
  exact ⟨s2, s3, r, h.trans h2, h3⟩

theorem Stops.of_step {buf : Bytes} {s s1 : W × Ext4File D} {r : Res (Option (Nat × Bytes))}
    (h : step dev buf s = (s1, r)) (hr : r ≠ .ok none) : Stops dev buf s :=
  ⟨s, s1, r, .refl _, h, hr⟩

theorem stops_iff {c : Bytes} {s : W × Ext4File D} (ho : Opened Is c s.2.fs) {buf : Bytes}
    (hb : blockSizeOf (sbOf c) ≤ buf.length) : (∃ s' r, Returns dev s buf s' r) ↔ Stops dev buf s := by
  obtain ⟨w, f⟩ := s
  constructor
  · rintro ⟨s', r, h⟩
    obtain ⟨s1, h1, h2⟩ := (returns_iff ho hb).1 h
    refine ⟨s1, s', _, h1, h2, ?_⟩
    cases r <;> (intro h; cases h)
  · rintro ⟨s1, s2, r, h1, h2, h3⟩
    obtain ⟨r', rfl⟩ := map_some_surj h3
    exact ⟨s2, r', (returns_iff ho hb).2 ⟨s1, h1, h2⟩⟩

section
variable (hv : VolumeSpec F dev G Is At) {c : Bytes} (hc : c.length < U64) {P : Bytes → Prop}
  (hP : Closed P c (blockSizeOf (sbOf c))) {i : Inode} {buf : Bytes}
  (hb : blockSizeOf (sbOf c) ≤ buf.length)
include hv hc hb

/-- An extent on top: the call ends or the extent, which is empty or used up, is removed. -/
theorem extent_stops {s : W × Ext4File D} (hi : Inv Is G c P i s) {e : Extent} {pos : Nat}
    {rest : List StackEntry} (hs : s.2.stack = .extent e pos :: rest) :
    Stops dev buf s ∨ (e.length ≤ pos ∧ ∃ s', Silent dev buf s s' ∧ s'.2.stack = rest) := by
  obtain ⟨w, f⟩ := s
  have hst := step_extent dev buf w f hs
  by_cases h1 : e.length ≤ pos
  · rw [stepExtent_done dev buf w _ rest h1] at hst
    exact .inr ⟨h1, _, .single hst, rfl⟩
  left
  obtain ⟨w', fs', hG', ho', h2⟩ := stepExtent_block hv hc hi.good
    (f := { f with stack := rest }) hi.opened buf hb rest (Nat.lt_of_not_le h1)
  rcases h2 with ⟨-, h2⟩ | ⟨h3, ⟨-, k, h2⟩ | ⟨-, h2⟩⟩
  · exact .of_step (hst.trans h2) (by intro h; cases h)
  · exact .of_step (hst.trans h2) (by intro h; cases h)
  · split at h2
    · exact .of_step (hst.trans h2) (by intro h; cases h)
    · split at h2 <;> exact .of_step (hst.trans h2) (by intro h; cases h)

include hP

/-- A tree on top from which no way is endless: the call ends or the tree is removed. -/
theorem acc_tree {p : Nat} {node : Bytes}
    (ht : Acc (fun b a => IndexStep c (blockSizeOf (sbOf c)) p a b) node) :
    ∀ (n : ExtentNode), n.storage = node → ∀ (s : W × Ext4File D), Inv Is G c P i s → s.2.blockPos = p →
      ∀ pos rest, s.2.stack = .tree (.fromInternal n) pos :: rest →
      Stops dev buf s ∨ ∃ s', Silent dev buf s s' ∧ s'.2.stack = rest := by
  induction ht with
  | intro node _ ihc =>
    rintro n rfl s hi hp0 pos rest hs
    obtain ⟨k, hk⟩ : ∃ k, nodeEntries n.storage - pos = k := ⟨_, rfl⟩
    induction k generalizing s pos with
    | zero =>
      obtain ⟨w, f⟩ := s
      have hst := step_tree dev buf w f hs
      rw [stepTree_done dev w _ rest (by omega)] at hst
      exact .inr ⟨_, .single hst, rfl⟩
    | succ k ih =>
      obtain ⟨w, f⟩ := s
      have hp0 : f.blockPos = p := hp0
      have hst := step_tree dev buf w f hs
      have hp : pos < nodeEntries n.storage := by omega
      by_cases hf : NodeFits n.storage
      rotate_left
      · rw [stepTree_panics dev w _ rest hp hf] at hst
        exact .inl (.of_step hst (by intro h; cases h))
      by_cases hd : nodeDepth n.storage = 0
      · rw [stepTree_leaf dev w _ rest hp hf hd] at hst
        split at hst
        rotate_left
        · exact .inl (.of_step hst (by intro h; cases h))
        have hi' := silent_inv hv hc hP hb (.single hst) hi
        rcases extent_stops hv hc hb hi'.1 rfl with h1 | ⟨-, s', h1, h2⟩
        · exact .inl (.of_silent (.single hst) h1)
        · have h3 := Silent.trans (.single hst) h1
          have hi2 := silent_inv hv hc hP hb h3 hi
          rcases ih s' hi2.1 (hi2.2.trans hp0) (pos + 1) h2 (by omega) with h4 | ⟨s'', h4, h5⟩
          · exact .inl (.of_silent h3 h4)
          · exact .inr ⟨s'', h3.trans h4, h5⟩
      · obtain ⟨w', fs', hG', ho', h1⟩ := stepTree_branch hv hc hi.good
          (f := { f with stack := rest }) hi.opened rest hp hf hd
        rcases h1 with ⟨-, h1⟩ | ⟨he, ⟨-, e, h1⟩ | ⟨h2, h1⟩⟩
        · exact .inl (.of_step (hst.trans h1) (by intro h; cases h))
        · exact .inl (.of_step (hst.trans h1) (by intro h; cases h))
        · have hst' := hst.trans h1
          have hi' := silent_inv hv hc hP hb (.single hst') hi
          rcases ihc _ ⟨hd, hf, pos, hp, he.trans hp0, h2, rfl⟩ (.fromBlock f.inode _) rfl _ hi'.1
            (hi'.2.trans hp0) 0 _ rfl with h3 | ⟨s', h3, h4⟩
          · exact .inl (.of_silent (.single hst') h3)
          · have h5 := Silent.trans (.single hst') h3
            have hi2 := silent_inv hv hc hP hb h5 hi
            rcases ih s' hi2.1 (hi2.2.trans hp0) (pos + 1) h4 (by omega) with h6 | ⟨s'', h6, h7⟩
            · exact .inl (.of_silent h5 h6)
            · exact .inr ⟨s'', h5.trans h6, h7⟩

/-- If there is no endless way from any node the call ends. -/
theorem stops_of_acc {p : Nat} (hacc : ∀ node, P node → Acc (fun b a => IndexStep c (blockSizeOf (sbOf c)) p a b) node)
    {s : W × Ext4File D} (hi : Inv Is G c P i s) (hp : s.2.blockPos = p) : Stops dev buf s := by
  obtain ⟨st, hst⟩ : ∃ st, s.2.stack = st := ⟨_, rfl⟩
  induction st generalizing s with
  | nil =>
    obtain ⟨w, f⟩ := s
    have := step_empty dev buf w f hst
    refine .of_step this ?_
    split <;> (intro h; cases h)
  | cons x rest ih =>
    have hs := hi.stack
    rw [hst] at hs
    have : Stops dev buf s ∨ ∃ s', Silent dev buf s s' ∧ s'.2.stack = rest := by
      rcases hs.1 with ⟨n, pos, rfl, ht⟩ | ⟨_, _, _, rfl, _⟩
      · exact acc_tree hv hc hP hb (hacc _ ht) n rfl s hi hp pos rest hst
      · exact (extent_stops hv hc hb hi hst).imp id And.right
    rcases this with h | ⟨s', h1, h2⟩
    · exact h
    · have hi' := silent_inv hv hc hP hb h1 hi
      exact .of_silent h1 (ih hi'.1 (hi'.2.trans hp) h2)

end

/-! ## The first call, exactly -/

section
variable (hv : VolumeSpec False dev G Is At) {c : Bytes} (hc : c.length < U64) {i : Inode} {buf : Bytes}
  (hb : blockSizeOf (sbOf c) ≤ buf.length)
include hv hc hb

/-- An empty tree on top is removed. -/
theorem hollow_tree {p : Nat} {node : Bytes} (ht : Hollow c (blockSizeOf (sbOf c)) p node) :
    ∀ (n : ExtentNode), n.storage = node → ∀ (s : W × Ext4File D), Inv Is G c (fun _ => True) i s → s.2.blockPos = p →
      ∀ pos rest, s.2.stack = .tree (.fromInternal n) pos :: rest →
      ∃ s', Silent dev buf s s' ∧ s'.2.stack = rest := by
  have hP := closed_true c (blockSizeOf (sbOf c))
  induction ht with
  | leaf node hd hall =>
    rintro n rfl s hi hp0 pos rest hs
    obtain ⟨k, hk⟩ : ∃ k, nodeEntries n.storage - pos = k := ⟨_, rfl⟩
    induction k generalizing s pos with
    | zero =>
      obtain ⟨w, f⟩ := s
      have hst := step_tree dev buf w f hs
      rw [stepTree_done dev w _ rest (by omega)] at hst
      exact ⟨_, .single hst, rfl⟩
    | succ k ih =>
      obtain ⟨w, f⟩ := s
      have hp0 : f.blockPos = p := hp0
      have hst := step_tree dev buf w f hs
      obtain ⟨hf, he, hz⟩ := hall pos (by omega)
      rw [stepTree_leaf dev w _ rest (by omega) hf hd, if_pos (he.trans hp0.symm)] at hst
      have hst2 := step_extent dev buf w { f with
          stack := .extent ⟨nodeEntry n.storage pos⟩ 0 ::
            .tree (.fromInternal n) (pos + 1) :: rest } rfl
      rw [stepExtent_done dev buf w _ _ (by rw [Extent.length_eq]; exact Nat.le_of_eq hz)] at hst2
      have h3 := Silent.trans (.single hst) (.single hst2)
      have hi2 := silent_inv hv hc hP hb h3 hi
      obtain ⟨s', h4, h5⟩ := ih _ hi2.1 (hi2.2.trans hp0) (pos + 1) rfl (by omega)
      exact ⟨s', h3.trans h4, h5⟩
  | branch node hd hall _ ihc =>
    rintro n rfl s hi hp0 pos rest hs
    obtain ⟨k, hk⟩ : ∃ k, nodeEntries n.storage - pos = k := ⟨_, rfl⟩
    induction k generalizing s pos with
    | zero =>
      obtain ⟨w, f⟩ := s
      have hst := step_tree dev buf w f hs
      rw [stepTree_done dev w _ rest (by omega)] at hst
      exact ⟨_, .single hst, rfl⟩
    | succ k ih =>
      obtain ⟨w, f⟩ := s
      have hp0 : f.blockPos = p := hp0
      have hst := step_tree dev buf w f hs
      have hp : pos < nodeEntries n.storage := by omega
      obtain ⟨hf, he, hin⟩ := hall pos hp
      obtain ⟨w', fs', hG', ho', h1⟩ := stepTree_branch hv hc hi.good
        (f := { f with stack := rest }) hi.opened rest hp hf hd
      rcases h1 with ⟨h1, -⟩ | ⟨-, ⟨h1 | h1, -⟩ | ⟨h2, h1⟩⟩
      · exact absurd (he.trans hp0.symm) h1
      · exact h1.elim
      · exact absurd hin h1
      · have hst' := hst.trans h1
        have hi' := silent_inv hv hc hP hb (.single hst') hi
        obtain ⟨s', h3, h4⟩ := ihc pos hp (.fromBlock f.inode _) rfl _ hi'.1 (hi'.2.trans hp0) 0 _ rfl
        have h5 := Silent.trans (.single hst') h3
        have hi2 := silent_inv hv hc hP hb h5 hi
        obtain ⟨s'', h6, h7⟩ := ih s' hi2.1 (hi2.2.trans hp0) (pos + 1) h4 (by omega)
        exact ⟨s'', h5.trans h6, h7⟩

/-- Empty entries at the beginning are passed over. -/
theorem hollow_entries {p : Nat} {n : ExtentNode} (hd : nodeDepth n.storage ≠ 0) (hf : NodeFits n.storage) {k : Nat}
    (hk : k ≤ nodeEntries n.storage)
    (hall : ∀ j, j < k → entryFirst (nodeEntry n.storage j) = p ∧
      BlockInside c (blockSizeOf (sbOf c)) (indexChild (nodeEntry n.storage j)) ∧
      Hollow c (blockSizeOf (sbOf c)) p (blockOf c (blockSizeOf (sbOf c)) (indexChild (nodeEntry n.storage j))))
    {s : W × Ext4File D} (hi : Inv Is G c (fun _ => True) i s) (hp0 : s.2.blockPos = p) {rest : List StackEntry}
    (hs : s.2.stack = .tree (.fromInternal n) 0 :: rest) :
    ∃ s', Silent dev buf s s' ∧ s'.2.stack = .tree (.fromInternal n) k :: rest := by
  have hP := closed_true c (blockSizeOf (sbOf c))
  induction k with
  | zero => exact ⟨s, .refl _, hs⟩
  | succ k ih =>
    obtain ⟨⟨w, f⟩, h1, h2⟩ := ih (by omega) fun j hj => hall j (by omega)
    have hi1 := silent_inv hv hc hP hb h1 hi
    have hp1 : f.blockPos = p := hi1.2.trans hp0
    have hst := step_tree dev buf w f h2
    obtain ⟨he, hin, hh⟩ := hall k (by omega)
    obtain ⟨w', fs', hG', ho', h3⟩ := stepTree_branch hv hc hi1.1.good
      (f := { f with stack := rest }) hi1.1.opened rest (pos := k) (by omega) hf hd
    rcases h3 with ⟨h3, -⟩ | ⟨-, ⟨h3 | h3, -⟩ | ⟨-, h3⟩⟩
    · exact absurd (he.trans hp1.symm) h3
    · exact h3.elim
    · exact absurd hin h3
    · have hst' := h1.trans (.single (hst.trans h3))
      have hi2 := silent_inv hv hc hP hb hst' hi
      obtain ⟨s', h4, h5⟩ := hollow_tree hv hc hb hh (.fromBlock f.inode _) rfl _ hi2.1 (hi2.2.trans hp0) 0 _ rfl
      exact ⟨s', hst'.trans h4, h5⟩

/-- From a node to the next. -/
theorem first_step {p : Nat} {n : ExtentNode} {b : Bytes} (h : FirstStep c (blockSizeOf (sbOf c)) p n.storage b)
    {s : W × Ext4File D} (hi : Inv Is G c (fun _ => True) i s) (hp0 : s.2.blockPos = p) {rest : List StackEntry}
    (hs : s.2.stack = .tree (.fromInternal n) 0 :: rest) :
    ∃ s1 s2 n' rest', Silent dev buf s s1 ∧ step dev buf s1 = (s2, .ok none) ∧ n'.storage = b ∧
      s2.2.stack = .tree (.fromInternal n') 0 :: rest' := by
  have hP := closed_true c (blockSizeOf (sbOf c))
  obtain ⟨hd, hf, k, hk, h1, h2, rfl⟩ := h
  obtain ⟨⟨w, f⟩, h3, h4⟩ := hollow_entries hv hc hb hd hf (Nat.le_of_lt hk)
    (fun j hj => ⟨(h1 j (by omega)).1, (h1 j (by omega)).2, h2 j hj⟩) hi hp0 hs
  have hi1 := silent_inv hv hc hP hb h3 hi
  have hp1 : f.blockPos = p := hi1.2.trans hp0
  have hst := step_tree dev buf w f h4
  obtain ⟨he, hin⟩ := h1 k (Nat.le_refl _)
  obtain ⟨w', fs', hG', ho', h5⟩ := stepTree_branch hv hc hi1.1.good
    (f := { f with stack := rest }) hi1.1.opened rest hk hf hd
  rcases h5 with ⟨h5, -⟩ | ⟨-, ⟨h5 | h5, -⟩ | ⟨-, h5⟩⟩
  · exact absurd (he.trans hp1.symm) h5
  · exact h5.elim
  · exact absurd hin h5
  · exact ⟨_, _, .fromBlock f.inode _, _, h3, hst.trans h5, rfl, rfl⟩

omit hv hc hb in
/-- The same, with the number of rounds. -/
theorem silent_rounds {s s1 : W × Ext4File D} (h : Silent dev buf s s1) :
    ∃ k, Rounds dev buf k s s1 := by
  induction h with
  | refl s => exact ⟨0, .refl s⟩
  | head a b d hab _ ih =>
    obtain ⟨k, hk⟩ := ih
    exact ⟨k + 1, .head k a b d hab hk⟩

omit hv hc hb in
theorem rounds_trans {k m : Nat} {a b d : W × Ext4File D} (h : Rounds dev buf k a b) (h' : Rounds dev buf m b d) :
    Rounds dev buf (k + m) a d := by
  induction h with
  | refl => rwa [Nat.zero_add]
  | head k a b d hab _ ih =>
    rw [Nat.add_right_comm]
    exact .head _ _ _ _ hab (ih h')

omit hv hc hb in
/-- The rounds up to the end of a call include those before any state passed. -/
theorem rounds_prefix {k m : Nat} {s s1 s2 s' : W × Ext4File D} {r : Res (Option (Nat × Bytes))}
    (h : Rounds dev buf k s s1) (hs : step dev buf s1 = (s2, r)) (hr : r ≠ .ok none) (h' : Rounds dev buf m s s') :
    ∃ k', Rounds dev buf k' s' s1 ∧ k' + m = k := by
  induction h' generalizing k with
  | refl => exact ⟨k, h, rfl⟩
  | head m a b d hab _ ih =>
    cases h with
    | refl =>
      rw [hab] at hs
      cases hs
      exact absurd rfl hr
    | head k _ b' _ hab' h'' =>
      rw [hab] at hab'
      cases hab'
      obtain ⟨k', h1, h2⟩ := ih h''
      exact ⟨k', h1, by omega⟩

/-- With an endless way from the node on top the call does not end. -/
theorem endless {p : Nat} {node : Bytes}
    (ht : ¬ Acc (fun b a => FirstStep c (blockSizeOf (sbOf c)) p a b) node) {n : ExtentNode} (hn : n.storage = node)
    {s : W × Ext4File D} (hi : Inv Is G c (fun _ => True) i s) (hp0 : s.2.blockPos = p) {rest : List StackEntry}
    (hs : s.2.stack = .tree (.fromInternal n) 0 :: rest) : ¬ Stops dev buf s := by
  have hP := closed_true c (blockSizeOf (sbOf c))
  rintro ⟨s1, s2, r, h1, h2, h3⟩
  obtain ⟨k, hk⟩ := silent_rounds h1
  clear h1
  induction k using Nat.strongRecOn generalizing node n s rest with
  | _ k ih =>
    obtain ⟨b, hb1, hb2⟩ := exists_not_acc_lt_of_not_acc ht
    subst hn
    obtain ⟨t1, t2, n', rest', g1, g2, g3, g4⟩ := first_step hv hc hb hb2 hi hp0 hs
    obtain ⟨m, hm⟩ := silent_rounds g1
    obtain ⟨k', hk', he⟩ := rounds_prefix hk h2 h3 (rounds_trans hm (.head 0 _ _ _ g2 (.refl _)))
    have hi' := silent_inv hv hc hP hb (g1.trans (.single g2)) hi
    exact ih k' (by omega) hb1 g3 hi'.1 (hi'.2.trans hp0) g4 hk'

/-- With no endless way from the node on top the call ends, or the tree, which is empty, is removed. -/
theorem first_tree {p : Nat} {node : Bytes}
    (ht : Acc (fun b a => FirstStep c (blockSizeOf (sbOf c)) p a b) node) :
    ∀ (n : ExtentNode), n.storage = node → ∀ (s : W × Ext4File D), Inv Is G c (fun _ => True) i s → s.2.blockPos = p →
      ∀ rest, s.2.stack = .tree (.fromInternal n) 0 :: rest →
      Stops dev buf s ∨ (Hollow c (blockSizeOf (sbOf c)) p node ∧ ∃ s', Silent dev buf s s' ∧ s'.2.stack = rest) := by
  have hP := closed_true c (blockSizeOf (sbOf c))
  induction ht with
  | intro node _ ihc =>
    rintro n rfl s hi hp0 rest hs
    by_cases hd : nodeDepth n.storage = 0
    · have key : ∀ k, k ≤ nodeEntries n.storage → Stops dev buf s ∨
          ((∀ j, j < k → NodeFits n.storage ∧ entryFirst (nodeEntry n.storage j) = p ∧
            le (nodeEntry n.storage j) 4 2 % 0x8000 = 0) ∧
            ∃ s', Silent dev buf s s' ∧ s'.2.stack = .tree (.fromInternal n) k :: rest) := by
        intro k hk
        induction k with
        | zero => exact .inr ⟨fun j hj => absurd hj (Nat.not_lt_zero _), s, .refl _, hs⟩
        | succ k ih =>
          rcases ih (by omega) with h | ⟨hall, ⟨w, f⟩, h1, h2⟩
          · exact .inl h
          have hi1 := silent_inv hv hc hP hb h1 hi
          have hp1 : f.blockPos = p := hi1.2.trans hp0
          have hst := step_tree dev buf w f h2
          by_cases hf : NodeFits n.storage
          rotate_left
          · rw [stepTree_panics dev w _ rest (by omega) hf] at hst
            exact .inl (.of_silent h1 (.of_step hst (by intro h; cases h)))
          rw [stepTree_leaf dev w _ rest (by omega) hf hd] at hst
          split at hst
          rotate_left
          · exact .inl (.of_silent h1 (.of_step hst (by intro h; cases h)))
          rename_i he
          have h3 := h1.trans (.single hst)
          have hi' := silent_inv hv hc hP hb h3 hi
          rcases extent_stops hv hc hb hi'.1 rfl with h4 | ⟨hz, s', h4, h5⟩
          · exact .inl (.of_silent h3 h4)
          · rw [Extent.length_eq] at hz
            refine .inr ⟨fun j hj => ?_, s', h3.trans h4, h5⟩
            rcases Nat.lt_succ_iff_lt_or_eq.mp hj with hj | rfl
            · exact hall j hj
            · exact ⟨hf, he.trans hp1, Nat.le_zero.mp hz⟩
      rcases key _ (Nat.le_refl _) with h | ⟨hall, ⟨w, f⟩, h1, h2⟩
      · exact .inl h
      · have hst := step_tree dev buf w f h2
        rw [stepTree_done dev w _ rest (Nat.le_refl _)] at hst
        exact .inr ⟨.leaf _ hd hall, _, h1.trans (.single hst), rfl⟩
    · have key : ∀ k, k ≤ nodeEntries n.storage → Stops dev buf s ∨
          ((∀ j, j < k → NodeFits n.storage ∧ entryFirst (nodeEntry n.storage j) = p ∧
            BlockInside c (blockSizeOf (sbOf c)) (indexChild (nodeEntry n.storage j)) ∧
            Hollow c (blockSizeOf (sbOf c)) p (blockOf c (blockSizeOf (sbOf c)) (indexChild (nodeEntry n.storage j)))) ∧
            ∃ s', Silent dev buf s s' ∧ s'.2.stack = .tree (.fromInternal n) k :: rest) := by
        intro k hk
        induction k with
        | zero => exact .inr ⟨fun j hj => absurd hj (Nat.not_lt_zero _), s, .refl _, hs⟩
        | succ k ih =>
          rcases ih (by omega) with h | ⟨hall, ⟨w, f⟩, h1, h2⟩
          · exact .inl h
          have hi1 := silent_inv hv hc hP hb h1 hi
          have hp1 : f.blockPos = p := hi1.2.trans hp0
          have hst := step_tree dev buf w f h2
          by_cases hf : NodeFits n.storage
          rotate_left
          · rw [stepTree_panics dev w _ rest (by omega) hf] at hst
            exact .inl (.of_silent h1 (.of_step hst (by intro h; cases h)))
          obtain ⟨w', fs', hG', ho', h3⟩ := stepTree_branch hv hc hi1.1.good
            (f := { f with stack := rest }) hi1.1.opened rest (pos := k) (by omega) hf hd
          rcases h3 with ⟨-, h3⟩ | ⟨he, ⟨-, e, h3⟩ | ⟨hin, h3⟩⟩
          · exact .inl (.of_silent h1 (.of_step (hst.trans h3) (by intro h; cases h)))
          · exact .inl (.of_silent h1 (.of_step (hst.trans h3) (by intro h; cases h)))
          have he' : entryFirst (nodeEntry n.storage k) = p := he.trans hp1
          have h4 := h1.trans (.single (hst.trans h3))
          have hi' := silent_inv hv hc hP hb h4 hi
          have hfirst : FirstStep c (blockSizeOf (sbOf c)) p n.storage
              (blockOf c (blockSizeOf (sbOf c)) (indexChild (nodeEntry n.storage k))) := by
            refine ⟨hd, hf, k, by omega, fun j hj => ?_, fun j hj => (hall j hj).2.2.2, rfl⟩
            rcases Nat.lt_or_eq_of_le hj with hj | rfl
            · exact ⟨(hall j hj).2.1, (hall j hj).2.2.1⟩
            · exact ⟨he', hin⟩
          rcases ihc _ hfirst (.fromBlock f.inode _) rfl _ hi'.1 (hi'.2.trans hp0) _ rfl with h5 | ⟨hh, s', h5, h6⟩
          · exact .inl (.of_silent h4 h5)
          · refine .inr ⟨fun j hj => ?_, s', h4.trans h5, h6⟩
            rcases Nat.lt_succ_iff_lt_or_eq.mp hj with hj | rfl
            · exact hall j hj
            · exact ⟨hf, he', hin, hh⟩
      rcases key _ (Nat.le_refl _) with h | ⟨hall, ⟨w, f⟩, h1, h2⟩
      · exact .inl h
      · have hst := step_tree dev buf w f h2
        rw [stepTree_done dev w _ rest (Nat.le_refl _)] at hst
        exact .inr ⟨.branch _ hd (fun j hj => ⟨(hall j hj).1, (hall j hj).2.1, (hall j hj).2.2.1⟩)
          fun j hj => (hall j hj).2.2.2, _, h1.trans (.single hst), rfl⟩

end

end Ext4File

end MdRecover
