import Verif.Lemmas.EndlessWalk
import Verif.Props.Ext4FileCases

/-! C66: on which files a read does not come to an end. -/

namespace MdRecover
open MdSpec

section
variable [Build]
variable {W D : Type} {F : Prop} {dev : StreamDev W D} {G : W → Prop} {Is : D → Bytes → Prop}
  {At : W → D → Nat → Prop}

omit [Build] in
theorem blockSizeOf_pos (sb : Bytes) : 0 < blockSizeOf sb := Nat.mul_pos (by omega) (Nat.two_pow_pos _)

/-- C66, what is needed for a call that does not return: whatever happened before, and whatever fails, if a call on a
file with less than 2^32 blocks does not return, then in its extent tree there is an index node from which one comes
back to it by entries that are all for the block of the file to be read next. -/
theorem C66_needs_circle (hv : VolumeSpec F dev G Is At) (c : Bytes) (hc : c.length < U64) (w : W)
    (hG : G w) (fs : Ext4Fs D) (ho : Opened Is c fs) (inode : Inode) (f : Ext4File D)
    (hf : Ext4File.open fs inode = .ok f) (hsize : BlocksCounted c inode.fileSizeBytes)
    (h : List (Bytes × Res (Nat × Bytes))) (s : W × Ext4File D) (hcalls : Calls dev (w, f) h s)
    (buf : Bytes) (hno : ¬ ∃ s' r, Returns dev s buf s' r) :
    ∃ x, BlockInside c (blockSizeOf (sbOf c)) x ∧
      TreeNode c (blockSizeOf (sbOf c)) inode.blocksBuffer (blockOf c (blockSizeOf (sbOf c)) x) ∧
      Relation.TransGen (IndexStep c (blockSizeOf (sbOf c)) (dataCalls h))
        (blockOf c (blockSizeOf (sbOf c)) x) (blockOf c (blockSizeOf (sbOf c)) x) := by
  have hP : Ext4File.Closed (TreeNode c (blockSizeOf (sbOf c)) inode.blocksBuffer) c (blockSizeOf (sbOf c)) :=
    fun node i h1 h2 h3 h4 h5 => .child node i h1 h2 h3 h4 h5
  obtain ⟨hi, hp, -, -⟩ := Ext4File.open_inv (w := w) hG ho hf (TreeNode c (blockSizeOf (sbOf c)) inode.blocksBuffer) .root
  obtain ⟨hi1, hp1⟩ := Ext4File.calls_inv hv hc hP hcalls hi hsize
  have hp1 : s.2.blockPos = dataCalls h := by rw [hp1]; show f.blockPos + _ = _; rw [hp, Nat.zero_add]
  have hb : blockSizeOf (sbOf c) ≤ buf.length := by
    by_contra hb
    exact hno ⟨_, _, (Ext4File.returns_short hi1.opened (by omega)).2 ⟨rfl, rfl⟩⟩
  have hna : ∃ node, TreeNode c (blockSizeOf (sbOf c)) inode.blocksBuffer node ∧
      ¬ Acc (fun b a => IndexStep c (blockSizeOf (sbOf c)) (dataCalls h) a b) node := by
    by_contra hall
    push Not at hall
    exact hno ((Ext4File.stops_iff hi1.opened hb).2 (Ext4File.stops_of_acc hv hc hP hb hall hi1 hp1))
  obtain ⟨node, hn, ha⟩ := hna
  obtain ⟨x, h1, h2, h3⟩ := circle (blockSizeOf_pos _)
    (fun a b hab => by obtain ⟨-, -, i, -, -, h1, h2⟩ := hab; exact ⟨_, h1, h2⟩) ha
  refine ⟨x, h1, ?_, h3⟩
  generalize blockOf c (blockSizeOf (sbOf c)) x = y at h2
  induction h2 with
  | single hs =>
    obtain ⟨g1, g2, j, g3, -, g4, rfl⟩ := hs
    exact .child _ j hn g1 g3 g2 g4
  | tail _ hs ih =>
    obtain ⟨g1, g2, j, g3, -, g4, rfl⟩ := hs
    exact .child _ j ih g1 g3 g2 g4

/-- C66, exactly: on a device that does not fail, the first call on a file does not return if and only if, going from
the root of its extent tree always to the first child that is not an empty tree, by entries that are for block 0 of the
file on, one comes to an index node for the second time. -/
theorem C66_first_call (hv : VolumeSpec False dev G Is At) (c : Bytes) (hc : c.length < U64) (w : W)
    (hG : G w) (fs : Ext4Fs D) (ho : Opened Is c fs) (inode : Inode) (f : Ext4File D)
    (hf : Ext4File.open fs inode = .ok f) (buf : Bytes) (hb : blockSizeOf (sbOf c) ≤ buf.length) :
    (¬ ∃ s' r, Returns dev (w, f) buf s' r) ↔
      ∃ x, BlockInside c (blockSizeOf (sbOf c)) x ∧
        Relation.TransGen (FirstStep c (blockSizeOf (sbOf c)) 0) inode.blocksBuffer
          (blockOf c (blockSizeOf (sbOf c)) x) ∧
        Relation.TransGen (FirstStep c (blockSizeOf (sbOf c)) 0) (blockOf c (blockSizeOf (sbOf c)) x)
          (blockOf c (blockSizeOf (sbOf c)) x) := by
  obtain ⟨hi, hp, -, hs⟩ := Ext4File.open_inv (w := w) hG ho hf (fun _ => True) trivial
  rw [Ext4File.stops_iff hi.opened hb]
  constructor
  · intro hno
    refine circle (blockSizeOf_pos _)
      (fun a b hab => by
        obtain ⟨-, -, i, -, h1, -, h2⟩ := hab
        exact ⟨_, (h1 i (Nat.le_refl _)).2, h2⟩) fun ha => hno ?_
    rcases Ext4File.first_tree hv hc hb ha (.fromInode inode) rfl (w, f) hi hp [] hs with h | ⟨-, ⟨w', f'⟩, h1, h2⟩
    · exact h
    · refine .of_silent h1 (.of_step (Ext4File.step_empty dev buf w' f' h2) ?_)
      split <;> (intro h; cases h)
  · rintro ⟨x, -, h1, h2⟩
    exact Ext4File.endless hv hc hb (not_acc_of_circle h1 h2) (n := .fromInode inode) rfl hi hp hs

/-- C66, exactly, for every call: on a device that does not fail, after any calls that returned data (or had too short a
buffer), the next call does not return if and only if there is a node such that one comes from the root of the extent
tree to it, the entries before being for the blocks returned so far, and from it back to it without any further
block. -/
theorem C66_exact (hv : VolumeSpec False dev G Is At) (c : Bytes) (hc : c.length < U64) (w : W)
    (hG : G w) (fs : Ext4Fs D) (ho : Opened Is c fs) (inode : Inode) (f : Ext4File D)
    (hf : Ext4File.open fs inode = .ok f) (hsize : BlocksCounted c inode.fileSizeBytes)
    (h : List (Bytes × Res (Nat × Bytes))) (s : W × Ext4File D) (hcalls : Calls dev (w, f) h s)
    (hd : ∀ x ∈ h, gotData x.2 = true ∨ x.1.length < blockSizeOf (sbOf c))
    (buf : Bytes) (hb : blockSizeOf (sbOf c) ≤ buf.length) :
    (¬ ∃ s' r, Returns dev s buf s' r) ↔
      ∃ node, Relation.ReflTransGen (LeadsTo c (blockSizeOf (sbOf c))) (inode.blocksBuffer, 0) (node, dataCalls h) ∧
        Relation.TransGen (LeadsTo c (blockSizeOf (sbOf c))) (node, dataCalls h) (node, dataCalls h) := by
  obtain ⟨hi, hp, -, hs⟩ := Ext4File.open_inv (w := w) hG ho hf (fun _ => True) trivial
  obtain ⟨hi1, hp1⟩ := Ext4File.calls_inv hv hc (Ext4File.closed_true _ _) hcalls hi hsize
  have hp1 : s.2.blockPos = dataCalls h := by rw [hp1]; show f.blockPos + _ = _; rw [hp, Nat.zero_add]
  obtain ⟨n, hn, hmin⟩ := Ext4File.calls_run hv hc hcalls hi hsize hd
  have hstart : Ext4File.frames (w, f) = ([.tree inode.blocksBuffer 0], 0) := by
    unfold Ext4File.frames
    simp only [hs, hp, List.map_cons, List.map_nil, Ext4File.frame, ExtentTree.node_fromInternal]
    rfl
  rw [hstart] at hn hmin
  rw [Ext4File.stops_iff hi1.opened hb, Ext4File.stops_iff_ends hv hc hb hi1]
  have hfr : Ext4File.frames s = ((Ext4File.frames s).1, dataCalls h) := by rw [← hp1]; rfl
  constructor
  · intro hno
    by_contra hcirc
    push Not at hcirc
    refine hno ?_
    have hl := Walk.Lies.run hn (Walk.Lies.root 0 0 (.none inode.blocksBuffer 0))
    rw [hfr] at hl ⊢
    refine Walk.Lies.ends (fun x hx => ?_) hl
    by_contra hacc
    obtain ⟨y, -, h1, h2⟩ := circle (r := fun a b =>
        LeadsTo c (blockSizeOf (sbOf c)) (a, dataCalls h) (b, dataCalls h)) (blockSizeOf_pos _)
      (fun a b hab => by obtain ⟨-, -, i, -, -, -, h1, h2⟩ := hab; exact ⟨_, h1, h2⟩) hacc
    have hlift : ∀ a b, Relation.TransGen (fun a b =>
        LeadsTo c (blockSizeOf (sbOf c)) (a, dataCalls h) (b, dataCalls h)) a b →
        Relation.TransGen (LeadsTo c (blockSizeOf (sbOf c))) (a, dataCalls h) (b, dataCalls h) :=
      fun a b hab => by
        induction hab with
        | single h => exact .single h
        | tail _ h ih => exact .tail ih h
    exact hcirc _ (hx.trans (hlift _ _ h1).to_reflTransGen) (hlift _ _ h2)
  · rintro ⟨node, h1, h2⟩ hend
    obtain ⟨m, rest, h3⟩ := (Walk.reached_run h1).2 []
    have h4 := hmin m _ h3
    rw [show m = n + (m - n) by omega] at h3
    obtain ⟨e', h5, h6⟩ := hn.split h3
    rw [show e' = 0 by omega] at h5
    obtain ⟨k, b, h7, h8⟩ := hend
    refine Walk.circle_endless h2 rest ?_
    by_cases hk : m - n ≤ k
    · rw [show k = m - n + (k - (m - n)) by omega] at h7
      obtain ⟨e, h9, h10⟩ := h5.split h7
      rw [show e = 0 by omega] at h9
      exact ⟨_, b, h9, h8⟩
    · obtain ⟨l, hl⟩ : ∃ l, m - n = k + (l + 1) := ⟨m - n - k - 1, by omega⟩
      rw [hl] at h5
      obtain ⟨e, h9, h10⟩ := h7.split h5
      cases h9 with
      | silent _ _ _ b' _ h11 => exact absurd h11 (h8 b')
      | data => omega

end

open Fixture

/-- Case for C66_first_call and C66_needs_circle: in the hand-made filesystem the tree of inode 4 goes round in a
circle, that of inode 3 does not; the first call on the one does not return, that on the other does. -/
theorem C66_circle_case :
    ((∃ x, BlockInside smallFs 1024 x ∧
        Relation.TransGen (FirstStep smallFs 1024 0) (root smallFs 4) (blockOf smallFs 1024 x) ∧
        Relation.TransGen (FirstStep smallFs 1024 0) (blockOf smallFs 1024 x) (blockOf smallFs 1024 x)) ∧
      ∃ (fs fs' : Ext4Fs InMemory) (f : Ext4File InMemory),
        Ext4Fs.open InMemory.streamDev ⟨smallFs, 0, 512⟩ () = ((), .ok fs) ∧
        Ext4Fs.readInode InMemory.streamDev 4 ((), fs) = (((), fs'), .ok (inodeOf smallFs 4)) ∧
        Ext4File.open fs' (inodeOf smallFs 4) = .ok f ∧
        ¬ ∃ s' r, Returns InMemory.streamDev ((), f) (zeros 1024) s' r) ∧
    ((¬ ∃ x, BlockInside smallFs 1024 x ∧
        Relation.TransGen (FirstStep smallFs 1024 0) (root smallFs 3) (blockOf smallFs 1024 x) ∧
        Relation.TransGen (FirstStep smallFs 1024 0) (blockOf smallFs 1024 x) (blockOf smallFs 1024 x)) ∧
      ∃ (fs fs' : Ext4Fs InMemory) (f : Ext4File InMemory) (s' : Unit × Ext4File InMemory) (r : Res (Nat × Bytes)),
        Ext4Fs.open InMemory.streamDev ⟨smallFs, 0, 512⟩ () = ((), .ok fs) ∧
        Ext4Fs.readInode InMemory.streamDev 3 ((), fs) = (((), fs'), .ok (inodeOf smallFs 3)) ∧
        Ext4File.open fs' (inodeOf smallFs 3) = .ok f ∧
        Returns InMemory.streamDev ((), f) (zeros 1024) s' r) := by
  have hbs := smallFs_like.blockSize
  have hlen := smallFs_length
  have hz : (zeros 1024).length = 1024 := List.length_replicate
  constructor
  · have hstep : ∀ node, node = root smallFs 4 ∨ node = blockOf smallFs 1024 7 →
        FirstStep smallFs 1024 0 node (blockOf smallFs 1024 7) := by
      intro node hn
      obtain ⟨h1, h2, h3, h4, h5⟩ := tree_values.2.2.1 node hn
      refine ⟨h1, h3, 0, h2, fun j hj => ?_, fun j hj => absurd hj (Nat.not_lt_zero _), by rw [h5]⟩
      rw [Nat.le_zero.mp hj, h5]
      exact ⟨h4, by unfold BlockInside; omega⟩
    have hcirc : ∃ x, BlockInside smallFs 1024 x ∧
        Relation.TransGen (FirstStep smallFs 1024 0) (root smallFs 4) (blockOf smallFs 1024 x) ∧
        Relation.TransGen (FirstStep smallFs 1024 0) (blockOf smallFs 1024 x) (blockOf smallFs 1024 x) :=
      ⟨7, by unfold BlockInside; omega, .single (hstep _ (.inl rfl)), .single (hstep _ (.inr rfl))⟩
    refine ⟨hcirc, ?_⟩
    obtain ⟨fs, fs', h1, h2, ho⟩ := smallFs_like.open 4 (by omega) (by omega)
      ((extra_values.1 4 (by omega)).resolve_right (by omega))
    have h3 := open_file fs' _ (has_extents 4 (by omega) (by omega))
    refine ⟨fs, fs', _, h1, h2, h3, (C66_first_call InMemory.volumeSpec smallFs (by omega) () trivial fs' ho _ _ h3 _
      (by rw [hbs]; exact Nat.le_of_eq hz.symm)).2 ?_⟩
    rw [hbs]
    exact hcirc
  · obtain ⟨⟨a1, a2, a3, a4, a5, -⟩, ⟨b1, -⟩, -⟩ := tree_values
    have hno : ¬ ∃ x, BlockInside smallFs 1024 x ∧
        Relation.TransGen (FirstStep smallFs 1024 0) (root smallFs 3) (blockOf smallFs 1024 x) ∧
        Relation.TransGen (FirstStep smallFs 1024 0) (blockOf smallFs 1024 x) (blockOf smallFs 1024 x) := by
      rintro ⟨x, -, h1, h2⟩
      have hfirst : ∀ y, FirstStep smallFs 1024 0 (root smallFs 3) y → y = blockOf smallFs 1024 6 := by
        rintro y ⟨-, -, i, hi, -, -, rfl⟩
        have : i = 0 := by omega
        rw [this, a5]
      have hnone : ∀ y, ¬ FirstStep smallFs 1024 0 (blockOf smallFs 1024 6) y := fun y h => h.1 b1
      have hx : ∀ y, Relation.TransGen (FirstStep smallFs 1024 0) (root smallFs 3) y → y = blockOf smallFs 1024 6 := by
        intro y h
        induction h with
        | single h => exact hfirst _ h
        | tail _ h ih => exact absurd (ih ▸ h) (hnone _)
      rw [hx _ h1] at h2
      obtain ⟨y, h3, -⟩ := Relation.TransGen.head'_iff.1 h2
      exact hnone _ h3
    refine ⟨hno, ?_⟩
    obtain ⟨fs, fs', h1, h2, ho⟩ := smallFs_like.open 3 (by omega) (by omega)
      ((extra_values.1 3 (by omega)).resolve_right (by omega))
    have h3 := open_file fs' _ (has_extents 3 (by omega) (by omega))
    by_contra hc
    refine hno ?_
    have := (C66_first_call InMemory.volumeSpec smallFs (by omega) () trivial fs' ho _ _ h3 (zeros 1024)
      (by rw [hbs]; exact Nat.le_of_eq hz.symm)).1 fun ⟨s', r, h⟩ => hc ⟨fs, fs', _, s', r, h1, h2, h3, h⟩
    rw [hbs] at this
    exact this

/-! ## A circle that the fourth call runs into -/

/-- The small filesystem with a second entry in the root of inode 3: from block 3 on, the file is described by block 7,
whose only entry names block 7, from block 3 on. -/
@[irreducible] def lateFs : Bytes :=
  patch (patch (patch smallFs 3626 [2]) 3648 [3, 0, 0, 0, 7, 0, 0, 0, 0, 0, 0, 0]) 7180 [3]

set_option maxRecDepth 100000 in
theorem lateFs_like : Like lateFs := by
  rw [lateFs]
  constructor
  · rw [smallFs]; decide +kernel
  · rw [smallFs]; decide +kernel

set_option maxRecDepth 100000 in
theorem lateFs_values : le lateFs (3072 + (3 - 1) * 256 + 0x80) 2 = 32 ∧
    (hasBit (inodeOf lateFs 3).flags 19 && !hasBit (inodeOf lateFs 3).flags 28) = true ∧
    (inodeOf lateFs 3).fileSizeBytes = 2500 := by
  rw [lateFs, smallFs]; decide +kernel

set_option maxRecDepth 100000 in
theorem lateFs_tree :
    (nodeDepth (root lateFs 3) = 1 ∧ nodeEntries (root lateFs 3) = 2 ∧ (root lateFs 3).length = 60
      ∧ entryFirst (nodeEntry (root lateFs 3) 0) = 0 ∧ indexChild (nodeEntry (root lateFs 3) 0) = 6
      ∧ entryFirst (nodeEntry (root lateFs 3) 1) = 3 ∧ indexChild (nodeEntry (root lateFs 3) 1) = 7)
    ∧ (nodeDepth (blockOf lateFs 1024 6) = 0 ∧ nodeEntries (blockOf lateFs 1024 6) = 2
      ∧ (blockOf lateFs 1024 6).length = 1024
      ∧ entryFirst (nodeEntry (blockOf lateFs 1024 6) 0) = 0
      ∧ le (nodeEntry (blockOf lateFs 1024 6) 0) 4 2 = 1
      ∧ entryFirst (nodeEntry (blockOf lateFs 1024 6) 1) = 1
      ∧ le (nodeEntry (blockOf lateFs 1024 6) 1) 4 2 = 2)
    ∧ (nodeDepth (blockOf lateFs 1024 7) ≠ 0 ∧ 0 < nodeEntries (blockOf lateFs 1024 7)
      ∧ 12 + 12 * nodeEntries (blockOf lateFs 1024 7) ≤ (blockOf lateFs 1024 7).length
      ∧ entryFirst (nodeEntry (blockOf lateFs 1024 7) 0) = 3
      ∧ indexChild (nodeEntry (blockOf lateFs 1024 7) 0) = 7) := by
  rw [lateFs, smallFs]; decide +kernel

/-- `k` calls, all of which return data. -/
def dataReads (buf : Bytes) : Nat → Unit × Ext4File InMemory → Option (Unit × Ext4File InMemory)
  | 0, s => some s
  | k + 1, s => (dataReads buf k s).bind fun s' =>
    match Ext4File.readNextBlock InMemory.streamDev 8 buf s' with
    | (s'', .ok (some (n, _))) => if n = 0 then none else some s''
    | _ => none

theorem dataReads_calls {buf : Bytes} {k : Nat} {s s' : Unit × Ext4File InMemory} (h : dataReads buf k s = some s') :
    ∃ l, Calls InMemory.streamDev s l s' ∧ (∀ x ∈ l, gotData x.2 = true) ∧ dataCalls l = k := by
  induction k generalizing s' with
  | zero => cases h; exact ⟨[], .nil _, fun x hx => absurd hx List.not_mem_nil, rfl⟩
  | succ k ih =>
    unfold dataReads at h
    obtain ⟨t, h1, h2⟩ := Option.bind_eq_some_iff.mp h
    obtain ⟨l, h3, h4, h5⟩ := ih h1
    split at h2
    next s'' n b heq =>
      split at h2
      · cases h2
      next hn =>
        cases h2
        have hg : gotData (.ok (n, b)) = true := by unfold gotData; simpa using hn
        refine ⟨l ++ [(buf, .ok (n, b))], .snoc _ _ _ _ _ _ h3 ⟨8, heq⟩ (fun h => nomatch h), ?_, ?_⟩
        · intro x hx
          rcases List.mem_append.mp hx with hx | hx
          · exact h4 x hx
          · rw [List.mem_singleton.mp hx]; exact hg
        · unfold dataCalls at h5 ⊢
          rw [List.countP_append, h5]
          show k + List.countP _ [_] = _
          rw [List.countP_singleton, if_pos hg]
    · cases h2

set_option maxRecDepth 100000 in
theorem lateFs_reads : (match Ext4Fs.open InMemory.streamDev ⟨lateFs, 0, 512⟩ () with
    | (_, .ok fs) => match Ext4Fs.readInode InMemory.streamDev 3 ((), fs) with
      | ((_, fs'), .ok _) => (dataReads (zeros 1024) 3 ((), fileOf fs' (inodeOf lateFs 3))).isSome
      | _ => false
    | _ => false) = true := by
  rw [lateFs, smallFs]; decide +kernel

/-- Case for C66_exact: three calls return the file's three blocks of data; the fourth, which should say that the file
is at its end, does not return. -/
theorem C66_exact_case : ∃ (fs fs' : Ext4Fs InMemory) (f : Ext4File InMemory)
    (h : List (Bytes × Res (Nat × Bytes))) (s : Unit × Ext4File InMemory),
    Ext4Fs.open InMemory.streamDev ⟨lateFs, 0, 512⟩ () = ((), .ok fs) ∧
    Ext4Fs.readInode InMemory.streamDev 3 ((), fs) = (((), fs'), .ok (inodeOf lateFs 3)) ∧
    Ext4File.open fs' (inodeOf lateFs 3) = .ok f ∧ Calls InMemory.streamDev ((), f) h s ∧ dataCalls h = 3 ∧
    ¬ ∃ s' r, Returns InMemory.streamDev s (zeros 1024) s' r := by
  obtain ⟨v1, v2, v3⟩ := lateFs_values
  obtain ⟨⟨a1, a2, a3, a4, a5, a6, a7⟩, ⟨b1, b2, b3, b4, b5, b6, b7⟩, ⟨c1, c2, c3, c4, c5⟩⟩ := lateFs_tree
  have hlen := lateFs_like.length
  have hbs := lateFs_like.blockSize
  have hz : (zeros 1024).length = 1024 := List.length_replicate
  obtain ⟨fs, fs', h1, h2, ho⟩ := lateFs_like.open 3 (by omega) (by omega) v1
  have h3 := open_file fs' _ v2
  have hr := lateFs_reads
  rw [h1] at hr
  dsimp only at hr
  rw [h2] at hr
  dsimp only at hr
  obtain ⟨s, hs⟩ := Option.isSome_iff_exists.mp hr
  obtain ⟨h, h4, h5, h6⟩ := dataReads_calls hs
  refine ⟨fs, fs', _, h, s, h1, h2, h3, h4, h6, (C66_exact InMemory.volumeSpec lateFs (by omega) () trivial fs' ho _ _ h3
    (.inr (by rw [v3, hbs]; decide)) h s h4 (fun x hx => .inl (h5 x hx)) _ (by rw [hbs, hz])).2 ?_⟩
  rw [h6, hbs]
  have hleaf : Spans lateFs 1024 (blockOf lateFs 1024 6) 2 0 3 := by
    have hf : NodeFits (blockOf lateFs 1024 6) := by unfold NodeFits; omega
    have s1 := Spans.extent (c := lateFs) (bs := 1024) _ 0 0 0 (.none _ 0) b1 hf (by omega) b4
    rw [b5] at s1
    have s2 := Spans.extent (c := lateFs) (bs := 1024) _ 1 0 1 s1 b1 hf (by omega) b6
    rw [b7] at s2
    exact s2
  have hroot : Spans lateFs 1024 (root lateFs 3) 1 0 3 :=
    .index _ 0 0 0 3 (.none _ 0) (by omega) (by unfold NodeFits; omega) (by omega) a4
      (by rw [a5]; unfold BlockInside; omega) (by rw [a5, b2]; exact hleaf)
  refine ⟨blockOf lateFs 1024 7, .single ⟨?_, ?_, 1, ?_, hroot, a6, ?_, ?_⟩,
    .single ⟨c1, c3, 0, c2, .none _ _, c4, ?_, ?_⟩⟩
  · show nodeDepth (root lateFs 3) ≠ 0; omega
  · show NodeFits (root lateFs 3); unfold NodeFits; omega
  · show 1 < nodeEntries (root lateFs 3); omega
  · show BlockInside lateFs 1024 (indexChild (nodeEntry (root lateFs 3) 1)); rw [a7]; unfold BlockInside; omega
  · show _ = blockOf lateFs 1024 (indexChild (nodeEntry (root lateFs 3) 1)); rw [a7]
  · rw [c5]; unfold BlockInside; omega
  · show _ = blockOf lateFs 1024 (indexChild (nodeEntry (blockOf lateFs 1024 7) 0)); rw [c5]

end MdRecover
