import Verif.Lemmas.Ext4FileCalls
import Verif.Spec.Retry

namespace MdRecover
variable [Build]
open MdSpec

/-! ## What a tree without gaps maps -/

omit [Build] in
/-- An entry maps block `q` of the file to block `x` of the volume. -/
theorem contiguous_entry {c : Bytes} {bs : Nat} {node : Bytes} {i p : Nat} {xs : List Nat}
    (h : Contiguous c bs node i p xs) : ∀ j, i ≤ j → j < nodeEntries node → ∀ q x,
      ((nodeDepth node = 0 ∧ ∃ k, k < extentLen (nodeEntry node j) ∧ q = entryFirst (nodeEntry node j) + k ∧
          x = extentStart (nodeEntry node j) + k) ∨
        (nodeDepth node ≠ 0 ∧ ExtentMap c bs (blockOf c bs (indexChild (nodeEntry node j))) q x)) →
      p ≤ q ∧ xs[q - p]? = some x := by
  induction h with
  | done node p =>
    intro j h1 h2
    omega
  | extent node i p xs hd hi hf hp hl hrest ih =>
    intro j h1 h2 q x h3
    rcases Nat.eq_or_lt_of_le h1 with rfl | h1
    · rcases h3 with ⟨-, k, hk, rfl, rfl⟩ | ⟨h3, -⟩
      · refine ⟨by omega, ?_⟩
        rw [List.getElem?_append_left (by simp; omega), List.getElem?_map, List.getElem?_range (by omega)]
        rw [hp]
        simp
      · exact absurd hd h3
    · obtain ⟨h4, h5⟩ := ih j h1 h2 q x h3
      refine ⟨by omega, ?_⟩
      rw [List.getElem?_append_right (by simp; omega)]
      rw [← h5]
      congr 1
      simp
      omega
  | index node i p sub xs hd hi hf hp hin hsub hrest ihs ih =>
    intro j h1 h2 q x h3
    rcases Nat.eq_or_lt_of_le h1 with rfl | h1
    · rcases h3 with ⟨h3, -⟩ | ⟨-, h3⟩
      · exact absurd h3 hd
      · have h4 : p ≤ q ∧ sub[q - p]? = some x := by
          generalize hb : blockOf c bs (indexChild (nodeEntry node i)) = b at h3 ihs
          cases h3 with
          | extent _ i' j' g1 g2 g3 g4 => exact ihs i' (Nat.zero_le _) g2 _ _ (.inl ⟨g1, j', g4, rfl, rfl⟩)
          | index _ i' _ _ g1 g2 g3 g4 g5 => exact ihs i' (Nat.zero_le _) g2 _ _ (.inr ⟨g1, g5⟩)
        refine ⟨h4.1, ?_⟩
        have hlt : q - p < sub.length := (List.getElem?_eq_some_iff.1 h4.2).1
        rw [List.getElem?_append_left hlt]
        exact h4.2
    · obtain ⟨h4, h5⟩ := ih j h1 h2 q x h3
      refine ⟨by omega, ?_⟩
      rw [List.getElem?_append_right (by omega), ← h5]
      congr 1
      omega

omit [Build] in
theorem contiguous_map {c : Bytes} {bs : Nat} {node : Bytes} {p : Nat} {xs : List Nat}
    (h : Contiguous c bs node 0 p xs) {q x : Nat} (hm : ExtentMap c bs node q x) :
    p ≤ q ∧ xs[q - p]? = some x := by
  cases hm with
  | extent _ i' j' g1 g2 g3 g4 =>
    exact contiguous_entry h i' (Nat.zero_le _) g2 _ _ (.inl ⟨g1, j', g4, rfl, rfl⟩)
  | index _ i' _ _ g1 g2 g3 g4 g5 =>
    exact contiguous_entry h i' (Nat.zero_le _) g2 _ _ (.inr ⟨g1, g5⟩)

omit [Build] in
/-- The entries that are left begin at block `p` of the file or later. -/
theorem contiguous_first {c : Bytes} {bs : Nat} {node : Bytes} {i p : Nat} {xs : List Nat}
    (h : Contiguous c bs node i p xs) : ∀ j, i ≤ j → j < nodeEntries node →
      NodeFits node ∧ p ≤ entryFirst (nodeEntry node j) := by
  induction h with
  | done node p =>
    intro j h1 h2
    omega
  | extent node i p xs hd hi hf hp hl hrest ih =>
    intro j h1 h2
    rcases Nat.eq_or_lt_of_le h1 with rfl | h1
    · exact ⟨hf, by omega⟩
    · have := ih j h1 h2
      exact ⟨hf, by omega⟩
  | index node i p sub xs hd hi hf hp hin hsub hrest ihs ih =>
    intro j h1 h2
    rcases Nat.eq_or_lt_of_le h1 with rfl | h1
    · exact ⟨hf, by omega⟩
    · have := ih j h1 h2
      exact ⟨hf, by omega⟩

omit [Build] in
theorem _root_.MdSpec.TreeNode.trans {c : Bytes} {bs : Nat} {a b d : Bytes} (h : TreeNode c bs a b)
    (h' : TreeNode c bs b d) : TreeNode c bs a d := by
  induction h' with
  | root => exact h
  | child node i _ h1 h2 h3 h4 ih => exact .child node i ih h1 h2 h3 h4

omit [Build] in
theorem _root_.MdSpec.EntriesFull.child {c : Bytes} {bs : Nat} {a b : Bytes} (h : EntriesFull c bs a)
    (h' : TreeNode c bs a b) : EntriesFull c bs b := fun node hn => h node (h'.trans hn)

omit [Build] in
/-- What is left is not empty. -/
theorem contiguous_full {c : Bytes} {bs : Nat} {node : Bytes} {i p : Nat} {xs : List Nat}
    (h : Contiguous c bs node i p xs) : EntriesFull c bs node → i < nodeEntries node → xs ≠ [] := by
  induction h with
  | done node p =>
    intro _ h
    omega
  | extent node i p xs hd hi hf hp hl hrest ih =>
    intro hfull _ h0
    have h1 := (hfull node .root).2 hd i hi
    have := congrArg List.length h0
    simp at this
    omega
  | index node i p sub xs hd hi hf hp hin hsub hrest ihs ih =>
    intro hfull _ h0
    have hc := hfull.child (.child node i .root hd hi hf hin)
    exact ihs hc (Nat.pos_of_ne_zero (hc _ .root).1) (List.append_eq_nil_iff.1 h0).1

namespace Ext4File
variable {W D : Type} {F : Prop} {dev : StreamDev W D} {G : W → Prop} {Is : D → Bytes → Prop}
  {At : W → D → Nat → Prop}

/-- All that is left on the stack begins after block `p` of the file. -/
def Beyond (p : Nat) (x : StackEntry) : Prop :=
  ∃ n pos, x = .tree (.fromInternal n) pos ∧ ∀ j, pos ≤ j → j < nodeEntries n.storage →
    NodeFits n.storage ∧ p < entryFirst (nodeEntry n.storage j)

/-- No call will return anything. -/
structure Dead (Is : D → Bytes → Prop) (c : Bytes) (s : W × Ext4File D) : Prop where
  opened : Opened Is c s.2.fs
  bytes : s.2.bytePos ≠ s.2.fileSizeBytes
  stack : ∀ x ∈ s.2.stack, Beyond s.2.blockPos x

theorem dead_step {c : Bytes} {s s' : W × Ext4File D} {buf : Bytes} {r : Res (Option (Nat × Bytes))}
    (h : Dead Is c s) (hs : step dev buf s = (s', r)) : Dead Is c s' ∧ (r = .ok none ∨ ∃ e, r = .err e) := by
  obtain ⟨w, f⟩ := s
  have hstack := h.stack
  simp only at hstack
  match hst : f.stack with
  | [] =>
    rw [step_empty dev buf w f hst, if_neg h.bytes] at hs
    cases hs
    exact ⟨h, .inr ⟨_, rfl⟩⟩
  | x :: rest =>
    rw [hst] at hstack
    obtain ⟨n, pos, rfl, hx⟩ := hstack x List.mem_cons_self
    rw [step_tree dev buf w f hst] at hs
    have hd : Dead Is c (w, { f with stack := rest }) :=
      ⟨h.opened, h.bytes, fun y hy => hstack y (List.mem_cons_of_mem _ hy)⟩
    by_cases hp : pos < nodeEntries n.storage
    · obtain ⟨hf, hlt⟩ := hx pos (Nat.le_refl _) hp
      have hlt : f.blockPos < entryFirst (nodeEntry n.storage pos) := hlt
      by_cases h0 : nodeDepth n.storage = 0
      · rw [stepTree_leaf dev w _ rest hp hf h0, if_neg (by show ¬ _ = f.blockPos; omega)] at hs
        cases hs
        exact ⟨hd, .inr ⟨_, rfl⟩⟩
      · unfold stepTree at hs
        rw [if_pos (by
          unfold ExtentTree.entryCount
          rw [ExtentTree.node_fromInternal, ExtentNode.entryCount_eq]; omega),
          ExtentTree.fromInternal_branch h0] at hs
        simp only at hs
        unfold stepBranch at hs
        rw [get_bind, ExtentNode.entryAt_fits hp hf, lift_bind] at hs
        simp only [ExtentIndex.block_eq] at hs
        rw [if_pos (by omega)] at hs
        cases hs
        exact ⟨hd, .inr ⟨_, rfl⟩⟩
    · rw [stepTree_done dev w _ rest (by omega)] at hs
      cases hs
      exact ⟨hd, .inl rfl⟩

theorem dead_silent {c : Bytes} {s s' : W × Ext4File D} {buf : Bytes} (h : Silent dev buf s s')
    (hd : Dead Is c s) : Dead Is c s' := by
  induction h with
  | refl => exact hd
  | head _ _ _ h1 _ ih => exact ih (dead_step hd h1).1

theorem dead_returns {c : Bytes} {s s' : W × Ext4File D} {buf : Bytes} {r : Res (Nat × Bytes)}
    (hd : Dead Is c s) (h : Returns dev s buf s' r) : Dead Is c s' ∧ ∃ e, r = .err e := by
  obtain ⟨w, f⟩ := s
  by_cases hb : buf.length < blockSizeOf (sbOf c)
  · obtain ⟨rfl, rfl⟩ := (returns_short hd.opened hb).1 h
    exact ⟨hd, _, rfl⟩
  · obtain ⟨s1, h1, h2⟩ := (returns_iff hd.opened (Nat.le_of_not_lt hb)).1 h
    obtain ⟨h3, h4⟩ := dead_step (dead_silent h1 hd) h2
    refine ⟨h3, ?_⟩
    rcases h4 with h4 | ⟨e, h4⟩
    · exact absurd h4 (map_some_ne r)
    · cases r <;> cases h4
      exact ⟨_, rfl⟩

omit [Build] in
theorem pending_beyond {c : Bytes} {bs : Nat} {st : List StackEntry} {q : Nat} {ys : List Nat}
    (h : Pending c bs st q ys) {p : Nat} (hpq : p < q) {P : Bytes → Prop} (ht : ∀ y ∈ st, TreeOk P y) :
    ∀ y ∈ st, Beyond p y := by
  induction h with
  | nil => exact fun y hy => (by cases hy)
  | tree n pos rest q xs ys hc _ ih =>
    intro y hy
    rcases List.mem_cons.1 hy with rfl | hy
    · refine ⟨n, pos, rfl, fun j h1 h2 => ?_⟩
      have := contiguous_first hc j h1 h2
      exact ⟨this.1, by omega⟩
    · exact ih (by omega) (fun z hz => ht z (List.mem_cons_of_mem _ hz)) y hy
  | extent e pos k rest q ys _ _ ih =>
    intro y hy
    obtain ⟨n, pos', h1, -⟩ := ht _ List.mem_cons_self
    cases h1

/-- Reading goes on as it should: so far nothing failed. -/
structure Alive (Is : D → Bytes → Prop) (G : W → Prop) (c : Bytes) (root : Bytes) (i : Inode) (total : Nat)
    (s : W × Ext4File D) : Prop where
  inv : Inv Is G c (TreeNode c (blockSizeOf (sbOf c)) root) i s
  pending : ∃ xs, Pending c (blockSizeOf (sbOf c)) s.2.stack s.2.blockPos xs ∧ s.2.blockPos + xs.length = total

section
variable (hv : VolumeSpec F dev G Is At) {c : Bytes} (hc : c.length < U64) {i : Inode} {root : Bytes} {total : Nat}
  (hfull : EntriesFull c (blockSizeOf (sbOf c)) root)
  (hsize : i.fileSizeBytes ≤ total * blockSizeOf (sbOf c))
  (hlast : ∀ p, p < total → p * blockSizeOf (sbOf c) < i.fileSizeBytes) (h32 : total < U32)
include hv hc hfull hsize hlast h32

theorem alive_step {s s' : W × Ext4File D} {buf : Bytes} {r : Res (Option (Nat × Bytes))}
    (hb : blockSizeOf (sbOf c) ≤ buf.length)
    (h : Alive Is G c root i total s) (hs : step dev buf s = (s', r)) :
    (Alive Is G c root i total s' ∧ ∃ a, r = .ok a) ∨ (Dead Is c s' ∧ ∃ e, r = .err e) := by
  have hP : Closed (TreeNode c (blockSizeOf (sbOf c)) root) c (blockSizeOf (sbOf c)) :=
    fun node i h1 h2 h3 h4 h5 => .child node i h1 h2 h3 h4 h5
  obtain ⟨w, f⟩ := s
  obtain ⟨xs, hpen, htot⟩ := h.pending
  have hpen : Pending c (blockSizeOf (sbOf c)) f.stack f.blockPos xs := hpen
  have htot : f.blockPos + xs.length = total := htot
  have hino : f.inode = i := h.inv.inode
  have hfs : f.fileSizeBytes = i.fileSizeBytes := by unfold fileSizeBytes; rw [hino]
  have hby : f.bytePos = min (f.blockPos * blockSizeOf (sbOf c)) i.fileSizeBytes := h.inv.bytes
  have hinv := fun (hr : r ≠ .panic) (hw : f.blockPos + 1 < U32 ∨ r = .ok none) =>
    (step_inv hv hc hP h.inv hb hs hr (hw.elim (fun h => .inr (.inl h)) fun h => .inr (.inr (.inr h)))).1
  have hsk := h.inv.stack
  simp only at hsk
  match hst : f.stack with
  | [] =>
    rw [hst] at hpen
    cases hpen
    have hfp : f.blockPos = total := by simpa using htot
    rw [step_empty dev buf w f hst, if_pos (by rw [hby, hfp, hfs]; omega)] at hs
    cases hs
    exact .inl ⟨h, _, rfl⟩
  | .tree t pos :: rest =>
    rw [hst] at hpen hsk
    obtain ⟨hx, htree⟩ := hsk
    obtain ⟨n, pos', hx, hn⟩ : TreeOk (TreeNode c (blockSizeOf (sbOf c)) root) (.tree t pos) := by
      rcases hx with hx | ⟨_, _, _, hx, _⟩
      · exact hx
      · cases hx
    cases hx
    generalize hp0 : f.blockPos = p at hpen
    generalize hst0 : StackEntry.tree (.fromInternal n) pos :: rest = st at hpen
    cases hpen with
    | nil => cases hst0
    | extent => cases hst0
    | tree n1 pos1 rest1 p xs ys hcont hrest =>
      have hn1 : n1 = n := by
        have h1 := (StackEntry.tree.inj (List.cons.inj hst0).1).1
        have := congrArg ExtentTree.node h1
        rw [ExtentTree.node_fromInternal, ExtentTree.node_fromInternal] at this
        exact this.symm
      obtain rfl : pos = pos1 := (StackEntry.tree.inj (List.cons.inj hst0).1).2
      obtain rfl : rest = rest1 := (List.cons.inj hst0).2
      subst hn1
      clear hst0
      rw [step_tree dev buf w f hst] at hs
      -- what happens if the call fails
      have hdead : ∀ (w' : W) (fs' : Ext4Fs D), Opened Is c fs' → xs ≠ [] →
          Dead Is c (w', { f with stack := rest, fs := fs' }) := by
        intro w' fs' ho' hne
        have hlen := List.length_pos_iff.2 hne
        simp only [List.length_append] at htot
        refine ⟨ho', ?_, ?_⟩
        · show f.bytePos ≠ f.fileSizeBytes
          have := hlast f.blockPos (by omega)
          omega
        · show ∀ x ∈ rest, Beyond f.blockPos x
          exact pending_beyond hrest (by omega) htree
      have hfulln := hfull.child hn
      generalize hstore : n1.storage = node at hcont
      cases hcont with
      | done =>
        rw [stepTree_done dev w _ rest (by rw [hstore])] at hs
        cases hs
        refine .inl ⟨⟨hinv (fun h => by cases h) (.inr rfl), ys, ?_, ?_⟩, _, rfl⟩
        · simpa [hp0] using hrest
        · simpa using htot
      | extent _ _ _ xs' hd hi hf h1 h2 hcont =>
        subst hstore
        rw [stepTree_leaf dev w _ rest hi hf hd, if_pos (by show _ = f.blockPos; omega)] at hs
        cases hs
        have hlen : (Extent.mk (nodeEntry n1.storage pos)).length = extentLen (nodeEntry n1.storage pos) :=
          Extent.length_of_written ⟨nodeEntry n1.storage pos⟩ h2
        refine .inl ⟨⟨hinv (fun h => by cases h) (.inr rfl), _, ?_, htot⟩, _, rfl⟩
        show Pending _ _ _ f.blockPos _
        rw [hp0, List.append_assoc, List.range_eq_range']
        refine .extent _ 0 _ _ _ _ (by rw [hlen]; omega) (.tree _ _ _ _ _ _ hcont ?_)
        simp only [List.length_append, List.length_map, List.length_range] at hrest
        rw [Nat.add_assoc]
        exact hrest
      | index _ _ _ sub xs' hd hi hf h1 h2 hsub hcont =>
        subst hstore
        have hne := contiguous_full (.index n1.storage pos p sub xs' hd hi hf h1 h2 hsub hcont) hfulln hi
        obtain ⟨w', fs', hG', ho', h3⟩ := stepTree_branch hv hc h.inv.good
          (f := { f with stack := rest }) h.inv.opened rest hi hf hd
        rcases h3 with ⟨h3, -⟩ | ⟨-, ⟨-, e, h3⟩ | ⟨-, h3⟩⟩
        · exact absurd (h1.trans hp0.symm) h3
        · rw [h3] at hs
          cases hs
          exact .inr ⟨hdead w' fs' ho' hne, _, rfl⟩
        · rw [h3] at hs
          cases hs
          refine .inl ⟨⟨hinv (fun h => by cases h) (.inr rfl), _, ?_, htot⟩, _, rfl⟩
          show Pending _ _ _ f.blockPos _
          rw [hp0, List.append_assoc]
          rw [List.length_append, ← Nat.add_assoc] at hrest
          exact .tree _ _ _ _ _ _ hsub (.tree _ _ _ _ _ _ hcont hrest)
  | .extent e pos :: rest =>
    rw [hst] at hpen hsk
    obtain ⟨-, htree⟩ := hsk
    rw [step_extent dev buf w f hst] at hs
    generalize hp0 : f.blockPos = p at hpen
    cases hpen with
    | extent _ _ k _ _ ys hlen hrest =>
      cases k with
      | zero =>
        rw [stepExtent_done dev buf w _ rest (by omega)] at hs
        cases hs
        refine .inl ⟨⟨hinv (fun h => by cases h) (.inr rfl), ys, ?_, ?_⟩, _, rfl⟩
        · simpa [hp0] using hrest
        · simpa using htot
      | succ k =>
        simp only [List.length_append, List.length_map, List.length_range'] at htot
        have hl := hlast f.blockPos (by omega)
        obtain ⟨w', fs', hG', ho', h3⟩ := stepExtent_block hv hc h.inv.good
          (f := { f with stack := rest }) h.inv.opened buf hb rest (by omega : pos < e.length)
        rcases h3 with ⟨h3, -⟩ | ⟨-, ⟨-, k', h3⟩ | ⟨-, h3⟩⟩
        · have h3 : f.fileSizeBytes ≤ f.bytePos := h3
          omega
        · rw [h3] at hs
          cases hs
          refine .inr ⟨⟨ho', ?_, ?_⟩, _, rfl⟩
          · show f.bytePos ≠ f.fileSizeBytes
            omega
          · show ∀ x ∈ rest, Beyond f.blockPos x
            exact pending_beyond hrest (by omega) htree
        · rw [h3, if_pos (by show f.blockPos + 1 < _; omega)] at hs
          cases hs
          refine .inl ⟨⟨hinv (fun h => by cases h) (.inl (by omega)),
            (List.range' (pos + 1) k).map (extentStart e.storage + ·) ++ ys, ?_, ?_⟩, _, rfl⟩
          · show Pending _ _ _ (f.blockPos + 1) _
            rw [hp0]
            exact .extent e (pos + 1) k rest (p + 1) ys (by omega) (by
              rw [Nat.add_assoc, Nat.add_comm 1 k]; exact hrest)
          · show f.blockPos + 1 + _ = _
            simp only [List.length_append, List.length_map, List.length_range']
            omega

theorem alive_silent {s s' : W × Ext4File D} {buf : Bytes} (hb : blockSizeOf (sbOf c) ≤ buf.length)
    (hs : Silent dev buf s s') (h : Alive Is G c root i total s) : Alive Is G c root i total s' := by
  induction hs with
  | refl => exact h
  | head _ _ _ h1 _ ih =>
    rcases alive_step hv hc hfull hsize hlast h32 hb h h1 with ⟨h2, -⟩ | ⟨-, e, h2⟩
    · exact ih h2
    · cases h2

theorem alive_returns {s s' : W × Ext4File D} {buf : Bytes} {r : Res (Nat × Bytes)}
    (h : Alive Is G c root i total s) (hret : Returns dev s buf s' r) :
    (Alive Is G c root i total s' ∧ (buf.length < blockSizeOf (sbOf c) ∨ ∃ a, r = .ok a)) ∨
      (Dead Is c s' ∧ blockSizeOf (sbOf c) ≤ buf.length ∧ ∃ e, r = .err e) := by
  obtain ⟨w, f⟩ := s
  by_cases hb : buf.length < blockSizeOf (sbOf c)
  · obtain ⟨rfl, rfl⟩ := (returns_short h.inv.opened hb).1 hret
    exact .inl ⟨h, .inl hb⟩
  · have hb := Nat.le_of_not_lt hb
    obtain ⟨s1, h1, h2⟩ := (returns_iff h.inv.opened hb).1 hret
    rcases alive_step hv hc hfull hsize hlast h32 hb
      (alive_silent hv hc hfull hsize hlast h32 hb h1 h) h2 with ⟨h3, a, h4⟩ | ⟨h3, e, h4⟩
    · refine .inl ⟨h3, .inr ?_⟩
      cases r <;> cases h4
      exact ⟨_, rfl⟩
    · refine .inr ⟨h3, hb, ?_⟩
      cases r <;> cases h4
      exact ⟨_, rfl⟩

theorem alive_calls {s s' : W × Ext4File D} {h : List (Bytes × Res (Nat × Bytes))}
    (hcalls : Calls dev s h s') (ha : Alive Is G c root i total s) :
    (Alive Is G c root i total s' ∧ ∀ x ∈ h, x.1.length < blockSizeOf (sbOf c) ∨ ∃ a, x.2 = .ok a) ∨
      (Dead Is c s' ∧ ∃ h1 x h2, h = h1 ++ x :: h2 ∧ blockSizeOf (sbOf c) ≤ x.1.length ∧ (∃ e, x.2 = .err e) ∧
        (∀ y ∈ h1, y.1.length < blockSizeOf (sbOf c) ∨ ∃ a, y.2 = .ok a) ∧ ∀ y ∈ h2, ∃ e, y.2 = .err e) := by
  induction hcalls with
  | nil => exact .inl ⟨ha, fun x hx => (by cases hx)⟩
  | snoc s' s'' h buf r _ hret hr ih =>
    rcases ih with ⟨ha', hall⟩ | ⟨hd, h1, x, h2, rfl, hx1, hx2, h3, h4⟩
    · rcases alive_returns hv hc hfull hsize hlast h32 ha' hret with ⟨ha'', h5⟩ | ⟨hd, h5, h6⟩
      · refine .inl ⟨ha'', fun x hx => ?_⟩
        rcases List.mem_append.1 hx with hx | hx
        · exact hall x hx
        · obtain rfl := List.mem_singleton.1 hx
          exact h5
      · exact .inr ⟨hd, h, _, [], rfl, h5, h6, hall, fun y hy => (by cases hy)⟩
    · obtain ⟨hd', h5⟩ := dead_returns hd hret
      refine .inr ⟨hd', h1, x, h2 ++ [(buf, r)], by simp, hx1, hx2, h3, fun y hy => ?_⟩
      rcases List.mem_append.1 hy with hy | hy
      · exact h4 y hy
      · obtain rfl := List.mem_singleton.1 hy
        exact h5

end
end Ext4File
end MdRecover
