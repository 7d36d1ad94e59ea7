import Verif.Lemmas.Ext4Extent

namespace MdRecover
variable [Build]
open MdSpec

namespace Ext4File
variable {W D : Type} {F : Prop} {dev : StreamDev W D} {G : W → Prop} {Is : D → Bytes → Prop}
  {At : W → D → Nat → Prop}

omit [Build] in
theorem onFs_eq {α : Type} {m : SM (W × Ext4Fs D) α} {w w' : W} {f : Ext4File D} {fs' : Ext4Fs D}
    {r : Res α} (h : m (w, f.fs) = ((w', fs'), r)) :
    onFs m (w, f) = ((w', { f with fs := fs' }), r) := by
  unfold onFs SM.zoom
  simp only [h]

omit [Build] in
theorem get_bind {α : Type} (s : W × Ext4File D) (k : W × Ext4File D → SM (W × Ext4File D) α) :
    (SM.get >>= k) s = k s s := rfl

omit [Build] in
theorem lift_bind {α β : Type} (a : α) (s : W × Ext4File D) (k : α → SM (W × Ext4File D) β) :
    (SM.lift (.ok a) >>= k) s = k a s := rfl

theorem blockSize_eq {c : Bytes} {f : Ext4File D} (ho : Opened Is c f.fs) :
    f.blockSize = .ok (blockSizeOf (sbOf c)) := ho.blockSize

/-- The stack is empty. -/
theorem step_empty (dev : StreamDev W D) (buf : Bytes) (w : W) (f : Ext4File D)
    (h : f.stack = []) :
    step dev buf (w, f) =
      ((w, f), if f.bytePos = f.fileSizeBytes then .ok (some (0, buf)) else .err .unexpectedEof) := by
  unfold step
  rw [get_bind]
  simp only [h]
  split <;> rfl

theorem step_tree (dev : StreamDev W D) (buf : Bytes) (w : W) (f : Ext4File D) {t : ExtentTree}
    {pos : Nat} {rest : List StackEntry} (h : f.stack = .tree t pos :: rest) :
    step dev buf (w, f) = stepTree dev t pos rest (w, { f with stack := rest }) := by
  unfold step
  rw [get_bind]
  simp only [h]
  rfl

theorem step_extent (dev : StreamDev W D) (buf : Bytes) (w : W) (f : Ext4File D) {e : Extent}
    {pos : Nat} {rest : List StackEntry} (h : f.stack = .extent e pos :: rest) :
    step dev buf (w, f) = stepExtent dev e pos rest buf (w, { f with stack := rest }) := by
  unfold step
  rw [get_bind]
  simp only [h]
  rfl

/-- A tree without further entries. -/
theorem stepTree_done (dev : StreamDev W D) (w : W) (f : Ext4File D) {n : ExtentNode} {pos : Nat}
    (rest : List StackEntry) (hp : nodeEntries n.storage ≤ pos) :
    stepTree dev (.fromInternal n) pos rest (w, f) = ((w, f), .ok none) := by
  unfold stepTree
  rw [if_neg]
  · rfl
  · unfold ExtentTree.entryCount
    rw [ExtentTree.node_fromInternal, ExtentNode.entryCount_eq]; omega

/-- A node whose entries do not fit. -/
theorem stepTree_panics (dev : StreamDev W D) (w : W) (f : Ext4File D) {n : ExtentNode} {pos : Nat}
    (rest : List StackEntry) (hp : pos < nodeEntries n.storage) (hf : ¬ NodeFits n.storage) :
    stepTree dev (.fromInternal n) pos rest (w, f) = ((w, f), .panic) := by
  unfold stepTree
  rw [if_pos]
  · by_cases hd : nodeDepth n.storage = 0
    · rw [ExtentTree.fromInternal_leaf hd]
      show stepLeaf n pos rest (w, f) = _
      unfold stepLeaf
      rw [get_bind, ExtentNode.entryAt_panics hp hf]
      rfl
    · rw [ExtentTree.fromInternal_branch hd]
      show stepBranch dev n pos rest (w, f) = _
      unfold stepBranch
      rw [get_bind, ExtentNode.entryAt_panics hp hf]
      rfl
  · unfold ExtentTree.entryCount
    rw [ExtentTree.node_fromInternal, ExtentNode.entryCount_eq]; omega

/-- A leaf. -/
theorem stepTree_leaf (dev : StreamDev W D) (w : W) (f : Ext4File D) {n : ExtentNode} {pos : Nat}
    (rest : List StackEntry) (hp : pos < nodeEntries n.storage) (hf : NodeFits n.storage)
    (hd : nodeDepth n.storage = 0) :
    stepTree dev (.fromInternal n) pos rest (w, f) =
      if entryFirst (nodeEntry n.storage pos) = f.blockPos then
        ((w, { f with
          stack := .extent ⟨nodeEntry n.storage pos⟩ 0 ::
            .tree (.fromInternal n) (pos + 1) :: rest }), .ok none)
      else ((w, f), .err .invalidData) := by
  unfold stepTree
  rw [if_pos]
  · rw [ExtentTree.fromInternal_leaf hd]
    show stepLeaf n pos rest (w, f) = _
    unfold stepLeaf
    rw [get_bind, ExtentNode.entryAt_fits hp hf, lift_bind]
    simp only [Extent.first_eq]
    by_cases h : entryFirst (nodeEntry n.storage pos) = f.blockPos
    · rw [if_neg (not_not_intro h), if_pos h]; rfl
    · rw [if_pos h, if_neg h]; rfl
  · unfold ExtentTree.entryCount
    rw [ExtentTree.node_fromInternal, ExtentNode.entryCount_eq]; omega

/-- A branch. -/
theorem stepTree_branch (hv : VolumeSpec F dev G Is At) {c : Bytes} (hc : c.length < U64) {w : W}
    (hG : G w) {f : Ext4File D} (ho : Opened Is c f.fs) {n : ExtentNode} {pos : Nat}
    (rest : List StackEntry) (hp : pos < nodeEntries n.storage) (hf : NodeFits n.storage)
    (hd : nodeDepth n.storage ≠ 0) :
    ∃ w' fs', G w' ∧ Opened Is c fs' ∧
      ((entryFirst (nodeEntry n.storage pos) ≠ f.blockPos ∧
        stepTree dev (.fromInternal n) pos rest (w, f) = ((w', { f with fs := fs' }), .err .invalidData)) ∨
       (entryFirst (nodeEntry n.storage pos) = f.blockPos ∧
        (((F ∨ ¬ BlockInside c (blockSizeOf (sbOf c)) (indexChild (nodeEntry n.storage pos))) ∧
          ∃ e, stepTree dev (.fromInternal n) pos rest (w, f)
            = ((w', { f with fs := fs' }), .err e)) ∨
         (BlockInside c (blockSizeOf (sbOf c)) (indexChild (nodeEntry n.storage pos)) ∧
          stepTree dev (.fromInternal n) pos rest (w, f) =
            ((w', { f with
              fs := fs'
              stack := .tree (.fromBlock f.inode
                  (blockOf c (blockSizeOf (sbOf c)) (indexChild (nodeEntry n.storage pos)))) 0 ::
                .tree (.fromInternal n) (pos + 1) :: rest }), .ok none))))) := by
  have hlt : pos < (ExtentTree.fromInternal n).entryCount := by
    unfold ExtentTree.entryCount
    rw [ExtentTree.node_fromInternal, ExtentNode.entryCount_eq]; omega
  have hst : stepTree dev (.fromInternal n) pos rest (w, f) = stepBranch dev n pos rest (w, f) := by
    unfold stepTree
    rw [if_pos hlt, ExtentTree.fromInternal_branch hd]
  rw [hst]
  unfold stepBranch
  rw [get_bind, ExtentNode.entryAt_fits hp hf, lift_bind]
  simp only [ExtentIndex.block_eq, ExtentIndex.leaf_eq]
  by_cases h1 : entryFirst (nodeEntry n.storage pos) = f.blockPos
  rotate_left
  · exact ⟨w, f.fs, hG, ho, .inl ⟨h1, by rw [if_pos h1]; rfl⟩⟩
  rw [if_neg (not_not_intro h1), blockSize_eq ho, lift_bind]
  have hz : (zeros (blockSizeOf (sbOf c))).length = blockSizeOf (sbOf c) := List.length_replicate
  obtain ⟨w', fs', r, h2, hG', ho', -, h3⟩ := Ext4Fs.readBlock_spec hv hG ho
    (indexChild (nodeEntry n.storage pos)) (zeros (blockSizeOf (sbOf c)))
  rw [hz] at h3
  refine ⟨w', fs', hG', ho', .inr ⟨h1, ?_⟩⟩
  rcases h3 with ⟨h3, e, rfl⟩ | ⟨-, h3, rfl⟩
  · left
    refine ⟨?_, e, ?_⟩
    · rcases h3 with h3 | h3 | h3 | h3
      · exact .inl h3
      · exact absurd h3 (Nat.lt_irrefl _)
      · right; unfold BlockInside; omega
      · right; unfold BlockInside; omega
    · rw [SM.bind_err (h := onFs_eq h2)]
  · right
    refine ⟨h3, ?_⟩
    rw [SM.bind_ok (h := onFs_eq h2), ← ExtentTree.fromInternal_branch hd]
    rfl

/-- An extent without further blocks. -/
theorem stepExtent_done (dev : StreamDev W D) (buf : Bytes) (w : W) (f : Ext4File D) {e : Extent}
    {pos : Nat} (rest : List StackEntry) (hp : e.length ≤ pos) :
    stepExtent dev e pos rest buf (w, f) = ((w, f), .ok none) := by
  unfold stepExtent
  rw [get_bind]
  show (if pos < e.length then _ else _ : SM (W × Ext4File D) _) (w, f) = _
  rw [if_neg (by omega)]
  rfl

/-- A block of an extent. -/
theorem stepExtent_block (hv : VolumeSpec F dev G Is At) {c : Bytes} (hc : c.length < U64) {w : W}
    (hG : G w) {f : Ext4File D} (ho : Opened Is c f.fs) (buf : Bytes)
    (hb : blockSizeOf (sbOf c) ≤ buf.length) {e : Extent} {pos : Nat} (rest : List StackEntry)
    (hp : pos < e.length) :
    ∃ w' fs', G w' ∧ Opened Is c fs' ∧
      ((f.fileSizeBytes ≤ f.bytePos ∧
        stepExtent dev e pos rest buf (w, f) = ((w', { f with fs := fs' }), .err .invalidData)) ∨
       (f.bytePos < f.fileSizeBytes ∧
        (((F ∨ c.length < (extentStart e.storage + pos) * blockSizeOf (sbOf c) + buf.length) ∧
          ∃ k, stepExtent dev e pos rest buf (w, f) = ((w', { f with fs := fs' }), .err k)) ∨
         ((extentStart e.storage + pos) * blockSizeOf (sbOf c) + buf.length ≤ c.length ∧
          stepExtent dev e pos rest buf (w, f) =
            if f.blockPos + 1 < U32 then
              ((w', { f with
                fs := fs', stack := .extent e (pos + 1) :: rest
                bytePos := f.bytePos + min (f.fileSizeBytes - f.bytePos) (blockSizeOf (sbOf c))
                blockPos := f.blockPos + 1 }),
               .ok (some (min (f.fileSizeBytes - f.bytePos) (blockSizeOf (sbOf c)),
                slice c ((extentStart e.storage + pos) * blockSizeOf (sbOf c)) buf.length)))
            else if Build.overflowChecks then
              ((w', { f with
                fs := fs', stack := .extent e (pos + 1) :: rest
                bytePos := f.bytePos + min (f.fileSizeBytes - f.bytePos) (blockSizeOf (sbOf c)) }),
               .panic)
            else
              ((w', { f with
                fs := fs', stack := .extent e (pos + 1) :: rest
                bytePos := f.bytePos + min (f.fileSizeBytes - f.bytePos) (blockSizeOf (sbOf c))
                blockPos := (f.blockPos + 1) % U32 }),
               .ok (some (min (f.fileSizeBytes - f.bytePos) (blockSizeOf (sbOf c)),
                slice c ((extentStart e.storage + pos) * blockSizeOf (sbOf c)) buf.length))))))) := by
  unfold stepExtent
  rw [get_bind]
  simp only [Extent.start_eq]
  rw [if_pos hp]
  by_cases h1 : f.fileSizeBytes ≤ f.bytePos
  · exact ⟨w, f.fs, hG, ho, .inl ⟨h1, by rw [if_pos h1]; rfl⟩⟩
  rw [if_neg h1]
  obtain ⟨w', fs', r, h2, hG', ho', -, h3⟩ := Ext4Fs.readBlock_spec hv hG ho
    (extentStart e.storage + pos) buf
  refine ⟨w', fs', hG', ho', .inr ⟨by omega, ?_⟩⟩
  rcases h3 with ⟨h3, k, rfl⟩ | ⟨-, h3, rfl⟩
  · left
    refine ⟨?_, k, ?_⟩
    · rcases h3 with h3 | h3 | h3 | h3
      · exact .inl h3
      · omega
      · right; omega
      · right; omega
    · rw [SM.bind_err (h := onFs_eq h2)]
  · right
    refine ⟨h3, ?_⟩
    rw [SM.bind_ok (h := onFs_eq h2), blockSize_eq ho, lift_bind]
    unfold add32
    split
    · rfl
    · split <;> rfl

end Ext4File
end MdRecover
