import Verif.Lemmas.Ext4FileRun

namespace MdRecover
variable [Build]
open MdSpec

namespace Ext4File
variable {W D : Type} {F : Prop} {dev : StreamDev W D} {G : W → Prop} {Is : D → Bytes → Prop}
  {At : W → D → Nat → Prop}

/-- The call ends, without a panic. -/
def Ends (dev : StreamDev W D) (buf : Bytes) (s : W × Ext4File D) : Prop :=
  ∃ s1 s2 r, Silent dev buf s s1 ∧ step dev buf s1 = (s2, r) ∧ r ≠ .ok none ∧ r ≠ .panic

theorem Ends.of_silent {buf : Bytes} {s s1 : W × Ext4File D} (h : Silent dev buf s s1)
    (h1 : Ends dev buf s1) : Ends dev buf s := by
  obtain ⟨s2, s3, r, h2, h3⟩ := h1
  exact ⟨s2, s3, r, h.trans h2, h3⟩

theorem Ends.of_err {buf : Bytes} {s s1 : W × Ext4File D} {e : ErrKind}
    (h : step dev buf s = (s1, .err e)) : Ends dev buf s :=
  ⟨s, s1, _, .refl _, h, fun h => (by cases h), fun h => (by cases h)⟩

omit [Build] in
theorem closed_tame (c : Bytes) (bs : Nat) : Closed (Tame c bs) c bs := by
  intro node i h h1 h2 _ h3
  cases h with
  | leaf _ h => exact absurd h h1
  | branch _ _ _ h => exact h i h2 h3

omit [Build] in
theorem closed_true (c : Bytes) (bs : Nat) : Closed (fun _ => True) c bs := fun _ _ _ _ _ _ _ => trivial

section
variable (hv : VolumeSpec F dev G Is At) {c : Bytes} (hc : c.length < U64) {P : Bytes → Prop}
  (hP : Closed P c (blockSizeOf (sbOf c))) {i : Inode}
  (hsize : i.fileSizeBytes ≤ (U32 - 1) * blockSizeOf (sbOf c)) {buf : Bytes}
  (hb : blockSizeOf (sbOf c) ≤ buf.length)
include hv hc hP hsize hb

/-- An extent on top: the call ends or the extent is removed. -/
theorem extent_top {s : W × Ext4File D} (hi : Inv Is G c P i s) {e : Extent} {pos : Nat}
    {rest : List StackEntry} (hs : s.2.stack = .extent e pos :: rest) :
    Ends dev buf s ∨ ∃ s', Silent dev buf s s' ∧ s'.2.stack = rest := by
  obtain ⟨w, f⟩ := s
  have hst := step_extent dev buf w f hs
  by_cases h1 : e.length ≤ pos
  · rw [stepExtent_done dev buf w _ rest h1] at hst
    exact .inr ⟨_, .single hst, rfl⟩
  left
  obtain ⟨w', fs', hG', ho', h2⟩ := stepExtent_block hv hc hi.good
    (f := { f with stack := rest }) hi.opened buf hb rest (Nat.lt_of_not_le h1)
  rcases h2 with ⟨-, h2⟩ | ⟨h3, ⟨-, k, h2⟩ | ⟨-, h2⟩⟩
  · exact .of_err (hst.trans h2)
  · exact .of_err (hst.trans h2)
  · have hpos : 0 < blockSizeOf (sbOf c) := Nat.mul_pos (by omega) (Nat.two_pow_pos _)
    have hlt : f.blockPos + 1 < U32 := by
      have h3 : f.bytePos < i.fileSizeBytes := by
        have : f.inode = i := hi.inode
        rw [← this]; exact h3
      have h4 : f.bytePos = min (f.blockPos * blockSizeOf (sbOf c)) i.fileSizeBytes := hi.bytes
      have h5 : f.blockPos * blockSizeOf (sbOf c) < (U32 - 1) * blockSizeOf (sbOf c) := by omega
      have := Nat.lt_of_mul_lt_mul_right h5
      omega
    rw [if_pos hlt] at h2
    exact ⟨_, _, _, .refl _, hst.trans h2, fun h => (by cases h), fun h => (by cases h)⟩

/-- A tree on top: the call ends or the tree is removed. -/
theorem tame_tree {node : Bytes} (ht : Tame c (blockSizeOf (sbOf c)) node) :
    ∀ (n : ExtentNode), n.storage = node → ∀ (s : W × Ext4File D), Inv Is G c P i s →
      ∀ pos rest, s.2.stack = .tree (.fromInternal n) pos :: rest →
      Ends dev buf s ∨ ∃ s', Silent dev buf s s' ∧ s'.2.stack = rest := by
  induction ht with
  | leaf node hd hf =>
    rintro n rfl s hi pos rest hs
    obtain ⟨k, hk⟩ : ∃ k, nodeEntries n.storage - pos = k := ⟨_, rfl⟩
    induction k generalizing s pos with
    | zero =>
      obtain ⟨w, f⟩ := s
      have hst := step_tree dev buf w f hs
      rw [stepTree_done dev w _ rest (by omega)] at hst
      exact .inr ⟨_, .single hst, rfl⟩
    | succ k ih =>
      obtain ⟨w, f⟩ := s
      have hst := step_tree dev buf w f hs
      rw [stepTree_leaf dev w _ rest (by omega) hf hd] at hst
      split at hst
      rotate_left
      · exact .inl (.of_err hst)
      have hi' := silent_inv hv hc hP hb (.single hst) hi
      rcases extent_top hv hc hP hsize hb hi'.1 rfl with h1 | ⟨s', h1, h2⟩
      · exact .inl (.of_silent (.single hst) h1)
      · have h3 := Silent.trans (.single hst) h1
        rcases ih s' (silent_inv hv hc hP hb h3 hi).1 (pos + 1) h2 (by omega) with h4 | ⟨s'', h4, h5⟩
        · exact .inl (.of_silent h3 h4)
        · exact .inr ⟨s'', h3.trans h4, h5⟩
  | branch node hd hf _ ihc =>
    rintro n rfl s hi pos rest hs
    obtain ⟨k, hk⟩ : ∃ k, nodeEntries n.storage - pos = k := ⟨_, rfl⟩
    induction k generalizing s pos with
    | zero =>
      obtain ⟨w, f⟩ := s
      have hst := step_tree dev buf w f hs
      rw [stepTree_done dev w _ rest (by omega)] at hst
      exact .inr ⟨_, .single hst, rfl⟩
    | succ k ih =>
      obtain ⟨w, f⟩ := s
      have hst := step_tree dev buf w f hs
      have hp : pos < nodeEntries n.storage := by omega
      obtain ⟨w', fs', hG', ho', h1⟩ := stepTree_branch hv hc hi.good
        (f := { f with stack := rest }) hi.opened rest hp hf hd
      rcases h1 with ⟨-, h1⟩ | ⟨-, ⟨-, e, h1⟩ | ⟨h2, h1⟩⟩
      · exact .inl (.of_err (hst.trans h1))
      · exact .inl (.of_err (hst.trans h1))
      · have hst' := hst.trans h1
        have hi' := silent_inv hv hc hP hb (.single hst') hi
        rcases ihc pos hp h2 (.fromBlock f.inode _) rfl _ hi'.1 0 _ rfl with h3 | ⟨s', h3, h4⟩
        · exact .inl (.of_silent (.single hst') h3)
        · have h5 := Silent.trans (.single hst') h3
          rcases ih s' (silent_inv hv hc hP hb h5 hi).1 (pos + 1) h4 (by omega) with h6 | ⟨s'', h6, h7⟩
          · exact .inl (.of_silent h5 h6)
          · exact .inr ⟨s'', h5.trans h6, h7⟩

end

/-- If all trees on the stack are tame the call ends. -/
theorem ends_of_tame (hv : VolumeSpec F dev G Is At) {c : Bytes} (hc : c.length < U64) {i : Inode}
    (hsize : i.fileSizeBytes ≤ (U32 - 1) * blockSizeOf (sbOf c)) {buf : Bytes}
    (hb : blockSizeOf (sbOf c) ≤ buf.length) {s : W × Ext4File D}
    (hi : Inv Is G c (Tame c (blockSizeOf (sbOf c))) i s) : Ends dev buf s := by
  obtain ⟨st, hst⟩ : ∃ st, s.2.stack = st := ⟨_, rfl⟩
  induction st generalizing s with
  | nil =>
    obtain ⟨w, f⟩ := s
    have := step_empty dev buf w f hst
    refine ⟨_, _, _, .refl _, this, ?_, ?_⟩ <;> (split <;> (intro h; cases h))
  | cons x rest ih =>
    have hs := hi.stack
    rw [hst] at hs
    have hP := closed_tame c (blockSizeOf (sbOf c))
    have : Ends dev buf s ∨ ∃ s', Silent dev buf s s' ∧ s'.2.stack = rest := by
      rcases hs.1 with ⟨n, pos, rfl, ht⟩ | ⟨_, _, _, rfl, _⟩
      · exact tame_tree hv hc hP hsize hb ht n rfl s hi pos rest hst
      · exact extent_top hv hc hP hsize hb hi hst
    rcases this with h | ⟨s', h1, h2⟩
    · exact h
    · exact .of_silent h1 (ih (silent_inv hv hc hP hb h1 hi).1 h2)

/-- What the stack still maps, from block `p` of the file on. -/
inductive Pending (c : Bytes) (bs : Nat) : List StackEntry → Nat → List Nat → Prop where
  | nil (p : Nat) : Pending c bs [] p []
  | tree (n : ExtentNode) (pos : Nat) (rest : List StackEntry) (p : Nat) (xs ys : List Nat) :
      Contiguous c bs n.storage pos p xs → Pending c bs rest (p + xs.length) ys →
      Pending c bs (.tree (.fromInternal n) pos :: rest) p (xs ++ ys)
  | extent (e : Extent) (pos k : Nat) (rest : List StackEntry) (p : Nat) (ys : List Nat) :
      e.length = pos + k → Pending c bs rest (p + k) ys →
      Pending c bs (.extent e pos :: rest) p
        ((List.range' pos k).map (extentStart e.storage + ·) ++ ys)

/-- The loop stands at a block of an extent, or at the end. -/
def AtBlock (c : Bytes) (bs : Nat) (st : List StackEntry) (p : Nat) (xs : List Nat) : Prop :=
  ∃ e pos rest, st = .extent e pos :: rest ∧ pos < e.length ∧ Pending c bs st p xs

section
variable (hv : VolumeSpec False dev G Is At) {c : Bytes} (hc : c.length < U64) {i : Inode}
  {buf : Bytes} (hb : blockSizeOf (sbOf c) ≤ buf.length)
include hv hc hb

theorem contiguous_tree {node : Bytes} {pos p : Nat} {xs : List Nat}
    (h : Contiguous c (blockSizeOf (sbOf c)) node pos p xs) :
    ∀ (n : ExtentNode), n.storage = node → ∀ (s : W × Ext4File D),
      Inv Is G c (fun _ => True) i s → s.2.blockPos = p → ∀ rest ys,
      s.2.stack = .tree (.fromInternal n) pos :: rest →
      Pending c (blockSizeOf (sbOf c)) rest (p + xs.length) ys →
      ∃ s', Silent dev buf s s' ∧ ((xs = [] ∧ s'.2.stack = rest) ∨
        AtBlock c (blockSizeOf (sbOf c)) s'.2.stack p (xs ++ ys)) := by
  have hP := closed_true c (blockSizeOf (sbOf c))
  induction h with
  | done node p =>
    rintro n rfl ⟨w, f⟩ hi rfl rest ys hs hpen
    have hst := step_tree dev buf w f hs
    rw [stepTree_done dev w _ rest (Nat.le_refl _)] at hst
    exact ⟨_, .single hst, .inl ⟨rfl, rfl⟩⟩
  | extent node j p xs hd hj hf h1 h2 hcont ih =>
    rintro n rfl ⟨w, f⟩ hi rfl rest ys hs hpen
    have hst := step_tree dev buf w f hs
    rw [stepTree_leaf dev w _ rest hj hf hd, if_pos h1] at hst
    have hlen : (Extent.mk (nodeEntry n.storage j)).length = extentLen (nodeEntry n.storage j) :=
      Extent.length_of_written ⟨nodeEntry n.storage j⟩ h2
    have hi' := silent_inv hv hc hP hb (.single hst) hi
    simp only [List.length_append, List.length_map, List.length_range] at hpen
    by_cases h0 : extentLen (nodeEntry n.storage j) = 0
    · have hst2 := step_extent dev buf w { f with
          stack := .extent ⟨nodeEntry n.storage j⟩ 0 ::
            .tree (.fromInternal n) (j + 1) :: rest } rfl
      rw [stepExtent_done dev buf w _ _ (by rw [hlen]; omega)] at hst2
      have h3 := Silent.trans (.single hst) (.single hst2)
      have hi2 := silent_inv hv hc hP hb h3 hi
      rw [h0] at hpen ih
      obtain ⟨s', h4, h5⟩ := ih n rfl _ hi2.1 rfl rest ys rfl (by simpa using hpen)
      refine ⟨s', h3.trans h4, ?_⟩
      rw [h0]
      exact h5
    · refine ⟨_, .single hst, .inr ⟨_, 0, _, rfl, by rw [hlen]; omega, ?_⟩⟩
      rw [List.append_assoc, List.range_eq_range']
      refine .extent _ 0 _ _ _ _ (by rw [hlen]; omega) (.tree _ _ _ _ _ _ hcont ?_)
      rw [Nat.add_assoc]; exact hpen
  | index node j p sub xs hd hj hf h1 h2 _ hcont ihc ih =>
    rintro n rfl ⟨w, f⟩ hi rfl rest ys hs hpen
    have hst := step_tree dev buf w f hs
    obtain ⟨w', fs', hG', ho', h3⟩ := stepTree_branch hv hc hi.good
      (f := { f with stack := rest }) hi.opened rest hj hf hd
    rcases h3 with ⟨h3, -⟩ | ⟨-, ⟨h3 | h3, -⟩ | ⟨-, h3⟩⟩
    · exact absurd h1 h3
    · exact h3.elim
    · exact absurd h2 h3
    have hst' := hst.trans h3
    have hi' := silent_inv hv hc hP hb (.single hst') hi
    rw [List.length_append, ← Nat.add_assoc] at hpen
    obtain ⟨s', h4, h5⟩ := ihc (.fromBlock f.inode _) rfl _ hi'.1 rfl
      (.tree (.fromInternal n) (j + 1) :: rest) (xs ++ ys) rfl (.tree _ _ _ _ _ _ hcont hpen)
    have h6 := Silent.trans (.single hst') h4
    rcases h5 with ⟨rfl, h5⟩ | h5
    · have hi2 := silent_inv hv hc hP hb h6 hi
      obtain ⟨s'', h7, h8⟩ := ih n rfl s' hi2.1 hi2.2 rest ys h5 hpen
      exact ⟨s'', h6.trans h7, h8⟩
    · exact ⟨s', h6, .inr (by rw [List.append_assoc]; exact h5)⟩

theorem pending_stack {st : List StackEntry} {p : Nat} {xs : List Nat}
    (h : Pending c (blockSizeOf (sbOf c)) st p xs) :
    ∀ (s : W × Ext4File D), Inv Is G c (fun _ => True) i s → s.2.blockPos = p → s.2.stack = st →
      ∃ s', Silent dev buf s s' ∧ ((xs = [] ∧ s'.2.stack = []) ∨
        AtBlock c (blockSizeOf (sbOf c)) s'.2.stack p xs) := by
  have hP := closed_true c (blockSizeOf (sbOf c))
  induction h with
  | nil p =>
    intro s _ _ hs
    exact ⟨s, .refl _, .inl ⟨rfl, hs⟩⟩
  | tree n pos rest p xs ys hcont hpen ih =>
    intro s hi hp hs
    obtain ⟨s', h1, h2⟩ := contiguous_tree hv hc hb hcont n rfl s hi hp rest ys hs hpen
    rcases h2 with ⟨rfl, h2⟩ | h2
    · have hi' := silent_inv hv hc hP hb h1 hi
      obtain ⟨s'', h3, h4⟩ := ih s' hi'.1 (hi'.2.trans hp) h2
      exact ⟨s'', h1.trans h3, h4⟩
    · exact ⟨s', h1, .inr h2⟩
  | extent e pos k rest p ys hlen hpen ih =>
    rintro ⟨w, f⟩ hi hp hs
    cases k with
    | zero =>
      have hst := step_extent dev buf w f hs
      rw [stepExtent_done dev buf w _ rest (by omega)] at hst
      have hi' := silent_inv hv hc hP hb (.single hst) hi
      obtain ⟨s'', h3, h4⟩ := ih _ hi'.1 hp rfl
      exact ⟨s'', Silent.trans (.single hst) h3, h4⟩
    | succ k =>
      refine ⟨_, .refl _, .inr ⟨e, pos, rest, hs, by omega, ?_⟩⟩
      rw [hs]
      exact .extent e pos (k + 1) rest p ys hlen hpen

/-- The next block is returned. -/
theorem pending_next {p x : Nat} {xs : List Nat} {s : W × Ext4File D}
    (hi : Inv Is G c (fun _ => True) i s) (hp : s.2.blockPos = p)
    (h : Pending c (blockSizeOf (sbOf c)) s.2.stack p (x :: xs))
    (hlt : p * blockSizeOf (sbOf c) < i.fileSizeBytes) (hp32 : p + 1 < U32)
    (hin : x * blockSizeOf (sbOf c) + buf.length ≤ c.length) :
    ∃ s', Returns dev s buf s' (.ok (min (i.fileSizeBytes - p * blockSizeOf (sbOf c))
        (blockSizeOf (sbOf c)), slice c (x * blockSizeOf (sbOf c)) buf.length)) ∧
      Inv Is G c (fun _ => True) i s' ∧ s'.2.blockPos = p + 1 ∧
      Pending c (blockSizeOf (sbOf c)) s'.2.stack (p + 1) xs := by
  have hP := closed_true c (blockSizeOf (sbOf c))
  obtain ⟨⟨w1, f1⟩, h1, h2⟩ := pending_stack hv hc hb h s hi hp rfl
  have hi1 := silent_inv hv hc hP hb h1 hi
  rcases h2 with ⟨h2, -⟩ | ⟨e, pos, rest, hs, hlen, h2⟩
  · cases h2
  have hs : f1.stack = .extent e pos :: rest := hs
  have h2 : Pending c (blockSizeOf (sbOf c)) f1.stack p (x :: xs) := h2
  rw [hs] at h2
  obtain ⟨k, hk, hx, hpen⟩ : ∃ k, e.length = pos + (k + 1) ∧ x = extentStart e.storage + pos ∧
      Pending c (blockSizeOf (sbOf c)) (.extent e (pos + 1) :: rest) (p + 1) xs := by
    generalize hxs : x :: xs = l at h2
    cases h2 with
    | extent e pos k rest p ys hl hpen =>
      cases k with
      | zero => omega
      | succ k =>
        rw [List.range'_succ, List.map_cons, List.cons_append] at hxs
        obtain ⟨h3, h4⟩ := List.cons.inj hxs
        refine ⟨k, hl, h3, ?_⟩
        rw [h4]
        exact .extent e (pos + 1) k rest (p + 1) ys (by omega) (by
          rw [Nat.add_assoc, Nat.add_comm 1 k]; exact hpen)
  have hst := step_extent dev buf w1 f1 hs
  have hpos : 0 < blockSizeOf (sbOf c) := Nat.mul_pos (by omega) (Nat.two_pow_pos _)
  obtain ⟨w', fs', hG', ho', h3⟩ := stepExtent_block hv hc hi1.1.good
    (f := { f1 with stack := rest }) hi1.1.opened buf hb rest hlen
  have hsz : f1.fileSizeBytes = i.fileSizeBytes := by
    have : f1.inode = i := hi1.1.inode
    unfold fileSizeBytes; rw [this]
  have hbp : f1.blockPos = p := hi1.2.trans hp
  have hby : f1.bytePos = min (f1.blockPos * blockSizeOf (sbOf c)) i.fileSizeBytes := hi1.1.bytes
  rw [hbp] at hby
  have hby : f1.bytePos = p * blockSizeOf (sbOf c) := by omega
  subst hx
  rcases h3 with ⟨h3, -⟩ | ⟨-, ⟨h3 | h3, -⟩ | ⟨-, h3⟩⟩
  · have h3 : f1.fileSizeBytes ≤ f1.bytePos := h3
    omega
  · exact h3.elim
  · omega
  have hst' := hst.trans h3
  rw [if_pos (by show f1.blockPos + 1 < _; omega)] at hst'
  have hstep := step_inv hv hc hP hi1.1 hb hst' (fun h => (by cases h))
    (.inr (.inl (by show f1.blockPos + 1 < _; omega)))
  refine ⟨_, (returns_iff hi.opened hb).2 ⟨_, h1, hst'.trans ?_⟩, hstep.1, ?_, hpen⟩
  · show _ = (_, Res.ok (some _))
    show (_, Res.ok (some (min (f1.fileSizeBytes - f1.bytePos) _, _))) = _
    rw [hsz, hby]
  · show f1.blockPos + 1 = _
    rw [hbp]

/-- At the end nothing is returned. -/
theorem pending_end {p : Nat} {s : W × Ext4File D}
    (hi : Inv Is G c (fun _ => True) i s) (hp : s.2.blockPos = p)
    (h : Pending c (blockSizeOf (sbOf c)) s.2.stack p [])
    (hle : i.fileSizeBytes ≤ p * blockSizeOf (sbOf c)) :
    ∃ s', Returns dev s buf s' (.ok (0, buf)) ∧
      Inv Is G c (fun _ => True) i s' ∧ s'.2.blockPos = p ∧
      Pending c (blockSizeOf (sbOf c)) s'.2.stack p [] := by
  have hP := closed_true c (blockSizeOf (sbOf c))
  obtain ⟨⟨w1, f1⟩, h1, h2⟩ := pending_stack hv hc hb h s hi hp rfl
  have hi1 := silent_inv hv hc hP hb h1 hi
  have hsz : f1.fileSizeBytes = i.fileSizeBytes := by
    have : f1.inode = i := hi1.1.inode
    unfold fileSizeBytes; rw [this]
  have hbp : f1.blockPos = p := hi1.2.trans hp
  have hby : f1.bytePos = min (f1.blockPos * blockSizeOf (sbOf c)) i.fileSizeBytes := hi1.1.bytes
  rw [hbp] at hby
  rcases h2 with ⟨-, h2⟩ | ⟨e, pos, rest, hs, hlen, h2⟩
  · have hst := step_empty dev buf w1 f1 h2
    rw [if_pos (by omega)] at hst
    refine ⟨(w1, f1), (returns_iff hi.opened hb).2 ⟨_, h1, hst⟩, hi1.1, hbp, ?_⟩
    show Pending _ _ f1.stack p []
    have h2 : f1.stack = [] := h2
    rw [h2]
    exact .nil p
  · have hs : f1.stack = .extent e pos :: rest := hs
    have h2 : Pending c (blockSizeOf (sbOf c)) f1.stack p [] := h2
    rw [hs] at h2
    generalize hxs : ([] : List Nat) = l at h2
    cases h2 with
    | extent e pos k rest p ys hl hpen =>
      cases k with
      | zero => omega
      | succ k => rw [List.range'_succ, List.map_cons, List.cons_append] at hxs; cases hxs

end
end Ext4File
end MdRecover
