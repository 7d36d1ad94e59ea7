import Verif.Lemmas.Ext4FileCalls
import Verif.Props.Ext4Fs
import Verif.Props.Ext4Inode
import Mathlib.Data.Nat.Bitwise

/- Files and extent trees: C63-C68.

`Ext4File.open fs inode = .ok f` opens the file of an inode; its extent tree has the root
`inode.blocksBuffer` (60 bytes) and further nodes in blocks of the volume.  `Returns` and `Calls`
(Spec/Ext4File) describe a call and a sequence of calls of `read_next_block`, with any buffers and
whatever they return.  `c` is the content of the volume, `blockSizeOf (sbOf c)` its block size. -/

namespace MdRecover
open MdSpec
variable [Build]

section
variable {W D : Type} {F : Prop} {dev : StreamDev W D} {G : W → Prop} {Is : D → Bytes → Prop}
  {At : W → D → Nat → Prop}

/-- C63: a call has one outcome, so what the theorems below say of some outcome holds of the
outcome. -/
theorem C63_one_outcome (s s1 s2 : W × Ext4File D) (buf : Bytes) (r1 r2 : Res (Nat × Bytes))
    (h1 : Returns dev s buf s1 r1) (h2 : Returns dev s buf s2 r2) : s1 = s2 ∧ r1 = r2 :=
  Ext4File.returns_unique h1 h2

/-- C63 in part: a file whose tree, of any depth and width, maps the blocks from 0 on without gaps to
written blocks `xs`, and whose size ends in the last of them, is read exactly: read `k` returns
block `k`, cut at the size; all together the data is the first `size` bytes of the blocks; further
reads return 0.  Missing: extents of length 0x8000, which the format allows
(`C63_longest_extent`). -/
theorem C63_content_partial (hv : VolumeSpec False dev G Is At) (c : Bytes) (hc : c.length < U64)
    (w : W) (hG : G w) (fs : Ext4Fs D) (ho : Opened Is c fs) (inode : Inode) (f : Ext4File D)
    (hf : Ext4File.open fs inode = .ok f) (xs : List Nat)
    (hx : Contiguous c (blockSizeOf (sbOf c)) inode.blocksBuffer 0 0 xs)
    (hsize : inode.fileSizeBytes ≤ xs.length * blockSizeOf (sbOf c))
    (hlast : xs ≠ [] → xs.length * blockSizeOf (sbOf c)
      < inode.fileSizeBytes + blockSizeOf (sbOf c))
    (h32 : xs.length < U32) (bufs : List Bytes) (hl : xs.length ≤ bufs.length)
    (hbufs : ∀ buf ∈ bufs, blockSizeOf (sbOf c) ≤ buf.length ∧
      ∀ x ∈ xs, x * blockSizeOf (sbOf c) + buf.length ≤ c.length) :
    ∃ (h : List (Bytes × Res (Nat × Bytes))) (s' : W × Ext4File D), Calls dev (w, f) h s' ∧
      h.map Prod.fst = bufs ∧
      dataOf h = (xs.flatMap (blockOf c (blockSizeOf (sbOf c)))).take inode.fileSizeBytes ∧
      (∀ k x buf, xs[k]? = some x → bufs[k]? = some buf → h[k]? = some (buf,
        Res.ok (min (inode.fileSizeBytes - k * blockSizeOf (sbOf c)) (blockSizeOf (sbOf c)),
          (c.drop (x * blockSizeOf (sbOf c))).take buf.length))) ∧
      (∀ k buf, xs.length ≤ k → bufs[k]? = some buf → h[k]? = some (buf, Res.ok (0, buf))) := by
  obtain ⟨hi, hp, -, hs⟩ := Ext4File.open_inv (w := w) hG ho hf (fun _ => True) trivial
  have hpen : Ext4File.Pending c (blockSizeOf (sbOf c)) f.stack 0 xs := by
    rw [hs, ← List.append_nil xs]
    exact .tree _ _ _ _ _ _ hx (.nil _)
  obtain ⟨s', h1⟩ := Ext4File.calls_expected hv hc bufs 0 xs (w, f) hbufs hi hp hpen
    (by rw [Nat.zero_add]; exact hsize) (by rw [Nat.zero_add]; exact hlast) (by omega)
  refine ⟨_, s', h1, Ext4File.expected_fst _ _ _ _ _ _, ?_, ?_, ?_⟩
  · cases bufs with
    | nil =>
      cases xs with
      | nil => exact List.take_nil.symm
      | cons x xs => simp at hl
    | cons b bufs =>
      rw [Ext4File.expected_data _ _ _ _ _ _ hl (fun b h => (hbufs b h).1) (fun x hx => ?_)
        (by rw [Nat.zero_add]; exact hsize), Nat.zero_mul, Nat.sub_zero]
      have := hbufs b List.mem_cons_self
      have h3 := this.2 x hx
      omega
  · intro k x buf h3 h4
    have := (Ext4File.expected_get c (blockSizeOf (sbOf c)) inode.fileSizeBytes 0 xs bufs k buf
      h4).1 x h3
    rw [Nat.zero_add] at this
    exact this
  · intro k buf h3 h4
    exact (Ext4File.expected_get c (blockSizeOf (sbOf c)) inode.fileSizeBytes 0 xs bufs k buf
      h4).2 h3

/-- C63 is false for the longest extent: a file whose only extent has the length 0x8000 (32768 written
blocks) and whose size is not zero cannot be read at all. -/
theorem C63_longest_extent (c : Bytes) (w : W) (hG : G w) (fs : Ext4Fs D) (ho : Opened Is c fs) (inode : Inode) (f : Ext4File D)
    (hf : Ext4File.open fs inode = .ok f) (h1 : nodeDepth inode.blocksBuffer = 0)
    (h2 : nodeEntries inode.blocksBuffer = 1) (h3 : NodeFits inode.blocksBuffer)
    (h4 : entryFirst (nodeEntry inode.blocksBuffer 0) = 0)
    (h5 : le (nodeEntry inode.blocksBuffer 0) 4 2 = 0x8000) (h6 : inode.fileSizeBytes ≠ 0)
    (buf : Bytes) (hb : blockSizeOf (sbOf c) ≤ buf.length) :
    extentLen (nodeEntry inode.blocksBuffer 0) = 32768 ∧
      ∃ s', Returns dev (w, f) buf s' (.err .unexpectedEof) := by
  refine ⟨by unfold extentLen; rw [h5]; rfl, ?_⟩
  obtain ⟨hi, hp, hbp, hs⟩ := Ext4File.open_inv (w := w) hG ho hf (fun _ => True) trivial
  have e1 := Ext4File.step_tree dev buf w f hs
  have hst : (ExtentNode.fromInode inode).storage = inode.blocksBuffer := rfl
  rw [Ext4File.stepTree_leaf dev w _ _ (by rw [hst, h2]; omega) (by rw [hst]; exact h3)
    (by rw [hst]; exact h1), if_pos (by rw [hst, h4]; exact hp.symm)] at e1
  have e2 := Ext4File.step_extent dev buf w { f with
    stack := [.extent ⟨nodeEntry inode.blocksBuffer 0⟩ 0, .tree (.fromInternal (.fromInode inode)) 1] }
    rfl
  have hz : (Extent.mk (nodeEntry inode.blocksBuffer 0)).length = 0 := by
    rw [Extent.length_eq]
    show le (nodeEntry inode.blocksBuffer 0) 4 2 % 0x8000 = 0
    rw [h5]
  rw [Ext4File.stepExtent_done dev buf w _ _ (by rw [hz])] at e2
  have e3 := Ext4File.step_tree dev buf w { f with
    stack := [.tree (.fromInternal (.fromInode inode)) 1] } rfl
  rw [Ext4File.stepTree_done dev w _ _ (by rw [hst, h2])] at e3
  have e4 := Ext4File.step_empty dev buf w { f with stack := [] } rfl
  have hsz : f.fileSizeBytes = inode.fileSizeBytes := by
    have : f.inode = inode := hi.inode
    unfold Ext4File.fileSizeBytes; rw [this]
  have hne : ¬ ({ f with stack := [] } : Ext4File D).bytePos
      = ({ f with stack := [] } : Ext4File D).fileSizeBytes := by
    show ¬ f.bytePos = f.fileSizeBytes
    rw [hsz, hbp]; exact fun h => h6 h.symm
  rw [if_neg hne] at e4
  exact ⟨_, (Ext4File.returns_iff hi.opened hb).2 ⟨_, (Ext4File.Silent.single e1).trans
    ((Ext4File.Silent.single e2).trans (.single e3)), e4⟩⟩

omit [Build] in
theorem closed_map (c : Bytes) (bs : Nat) (root : Bytes) :
    Ext4File.Closed (fun b => ∀ p x, ExtentMap c bs b p x → ExtentMap c bs root p x) c bs :=
  fun node i h h1 h2 h3 h4 p x h5 => h p x (.index node i p x h1 h2 h3 h4 h5)

/-- C64: whatever the tree contains, and whatever failed before, a call that returns data returns a
block that an extent of the tree maps to the file block with the number of blocks returned before;
the number of bytes is the block size, or what is left of the file if that is less. -/
theorem C64_right_block (hv : VolumeSpec F dev G Is At) (c : Bytes) (hc : c.length < U64) (w : W)
    (hG : G w) (fs : Ext4Fs D) (ho : Opened Is c fs) (inode : Inode) (f : Ext4File D)
    (hf : Ext4File.open fs inode = .ok f) (hw : BlocksCounted c inode.fileSizeBytes)
    (h : List (Bytes × Res (Nat × Bytes))) (s s' : W × Ext4File D) (hcalls : Calls dev (w, f) h s) (buf out : Bytes) (n : Nat)
    (hret : Returns dev s buf s' (.ok (n, out))) (hn : n ≠ 0) :
    ∃ x, ExtentMap c (blockSizeOf (sbOf c)) inode.blocksBuffer (dataCalls h) x ∧
      x * blockSizeOf (sbOf c) + buf.length ≤ c.length ∧
      out = (c.drop (x * blockSizeOf (sbOf c))).take buf.length ∧
      n = min (inode.fileSizeBytes - dataCalls h * blockSizeOf (sbOf c)) (blockSizeOf (sbOf c)) := by
  have hP := closed_map c (blockSizeOf (sbOf c)) inode.blocksBuffer
  obtain ⟨hi, hp, -, -⟩ := Ext4File.open_inv (w := w) hG ho hf
    (fun b => ∀ p x, ExtentMap c (blockSizeOf (sbOf c)) b p x →
      ExtentMap c (blockSizeOf (sbOf c)) inode.blocksBuffer p x)
    (fun _ _ h => h)
  obtain ⟨hi1, hp1⟩ := Ext4File.calls_inv hv hc hP hcalls hi hw
  have hp1 : s.2.blockPos = dataCalls h := by
    rw [hp1]
    show f.blockPos + _ = _
    omega
  obtain ⟨-, h1⟩ := Ext4File.returns_inv hv hc hP hi1 hret (fun h => (by cases h)) hw
  rw [hp1] at h1
  rcases h1 with ⟨-, ⟨e, h1⟩ | ⟨h1, -⟩⟩ | ⟨-, -, node, k, j, h2, h3, h4, h5, h6, h7, h8, h1⟩
  · cases h1
  · cases h1
    exact absurd rfl hn
  · cases h1
    refine ⟨_, h2 _ _ ?_, h8, rfl, rfl⟩
    rw [← h6]
    exact .extent node k j h3 h4 h5 (Nat.lt_of_lt_of_le h7 (Extent.length_le _))

/-- C65, gaps: if no extent maps the next block of the file, and the file goes on, the call does not
succeed. -/
theorem C65_gap (hv : VolumeSpec F dev G Is At) (c : Bytes) (hc : c.length < U64) (w : W)
    (hG : G w) (fs : Ext4Fs D) (ho : Opened Is c fs) (inode : Inode) (f : Ext4File D)
    (hf : Ext4File.open fs inode = .ok f) (hw : BlocksCounted c inode.fileSizeBytes)
    (h : List (Bytes × Res (Nat × Bytes))) (s s' : W × Ext4File D) (hcalls : Calls dev (w, f) h s)
    (hgap : ∀ x, ¬ ExtentMap c (blockSizeOf (sbOf c)) inode.blocksBuffer (dataCalls h) x)
    (hmore : dataCalls h * blockSizeOf (sbOf c) < inode.fileSizeBytes) (buf : Bytes)
    (r : Res (Nat × Bytes)) (hret : Returns dev s buf s' r) : ∀ a, r ≠ .ok a := by
  rintro ⟨n, out⟩ rfl
  by_cases hn : n = 0
  · have hP := closed_map c (blockSizeOf (sbOf c)) inode.blocksBuffer
    obtain ⟨hi, hp, -, -⟩ := Ext4File.open_inv (w := w) hG ho hf
      (fun b => ∀ p x, ExtentMap c (blockSizeOf (sbOf c)) b p x →
        ExtentMap c (blockSizeOf (sbOf c)) inode.blocksBuffer p x)
      (fun _ _ h => h)
    obtain ⟨hi1, hp1⟩ := Ext4File.calls_inv hv hc hP hcalls hi hw
    have hp1 : s.2.blockPos = dataCalls h := by
      rw [hp1]
      show f.blockPos + _ = _
      omega
    obtain ⟨-, h1⟩ := Ext4File.returns_inv hv hc hP hi1 hret (fun h => (by cases h)) hw
    rw [hp1] at h1
    have hpos : 0 < blockSizeOf (sbOf c) := Nat.mul_pos (by omega) (Nat.two_pow_pos _)
    rcases h1 with ⟨-, ⟨e, h1⟩ | ⟨-, h1⟩⟩ | ⟨-, -, node, k, j, h2, h3, h4, h5, h6, h7, h8, h1⟩
    · cases h1
    · omega
    · cases h1
      omega
  · obtain ⟨x, h1, -⟩ := C64_right_block hv c hc w hG fs ho inode f hf hw h s s' hcalls buf out n hret hn
    exact hgap x h1

/-- C65, blocks beyond the end: after the blocks that hold the file no data is returned. -/
theorem C65_beyond (hv : VolumeSpec F dev G Is At) (c : Bytes) (hc : c.length < U64) (w : W)
    (hG : G w) (fs : Ext4Fs D) (ho : Opened Is c fs) (inode : Inode) (f : Ext4File D)
    (hf : Ext4File.open fs inode = .ok f) (hw : BlocksCounted c inode.fileSizeBytes)
    (h : List (Bytes × Res (Nat × Bytes))) (s s' : W × Ext4File D) (hcalls : Calls dev (w, f) h s)
    (hend : inode.fileSizeBytes ≤ dataCalls h * blockSizeOf (sbOf c)) (buf out : Bytes) (n : Nat)
    (hret : Returns dev s buf s' (.ok (n, out))) : n = 0 := by
  refine Decidable.byContradiction fun hn => ?_
  obtain ⟨x, -, -, -, h1⟩ :=
    C64_right_block hv c hc w hG fs ho inode f hf hw h s s' hcalls buf out n hret hn
  omega

/-- C66 in part: if the tree has no cycles, its nodes hold their entries and the file has less than
2^32 blocks, every call returns, without a panic; also after errors, and if the device fails.
Missing: cycles (`C66_cycle`) and nodes that do not hold their entries (`C68_too_many`). -/
theorem C66_returns_partial (hv : VolumeSpec F dev G Is At) (c : Bytes) (hc : c.length < U64) (w : W)
    (hG : G w) (fs : Ext4Fs D) (ho : Opened Is c fs) (inode : Inode) (f : Ext4File D)
    (hf : Ext4File.open fs inode = .ok f)
    (ht : Tame c (blockSizeOf (sbOf c)) inode.blocksBuffer)
    (hsize : inode.fileSizeBytes ≤ (U32 - 1) * blockSizeOf (sbOf c))
    (h : List (Bytes × Res (Nat × Bytes))) (s : W × Ext4File D) (hcalls : Calls dev (w, f) h s)
    (buf : Bytes) : ∃ s' r, Returns dev s buf s' r ∧ r ≠ .panic := by
  obtain ⟨hi, hp, -, -⟩ := Ext4File.open_inv (w := w) hG ho hf _ ht
  obtain ⟨hi1, hp1⟩ := Ext4File.calls_inv hv hc (Ext4File.closed_tame _ _) hcalls hi (.inr hsize)
  by_cases hb : buf.length < blockSizeOf (sbOf c)
  · exact ⟨_, _, (Ext4File.returns_short hi1.opened hb).2 ⟨rfl, rfl⟩, fun h => (by cases h)⟩
  · have hb : blockSizeOf (sbOf c) ≤ buf.length := by omega
    obtain ⟨s1, s2, r, h1, h2, h3, h4⟩ := Ext4File.ends_of_tame hv hc hsize hb hi1
    obtain ⟨r', rfl⟩ := Ext4File.map_some_surj h3
    exact ⟨s2, r', (Ext4File.returns_iff hi1.opened hb).2 ⟨s1, h1, h2⟩, fun h => h4 (by rw [h]; rfl)⟩

omit [Build] in
/-- C66: trees whose depths go down by one at each level, as the kernel demands, have no cycles. -/
theorem C66_leveled (c : Bytes) (bs d : Nat) (node : Bytes) (h : Leveled c bs d node) :
    Tame c bs node := by
  induction d generalizing node with
  | zero => exact .leaf node h.1 h.2
  | succ d ih =>
    obtain ⟨h1, h2, h3⟩ := h
    exact .branch node (by omega) h2 fun i hi hin => ih _ (h3 i hi hin)

/-- C65, gaps, with C66: if the tree has no cycles, its nodes hold their entries and the file has less
than 2^32 blocks, the call for a missing block returns an error. -/
theorem C65_gap_error (hv : VolumeSpec F dev G Is At) (c : Bytes) (hc : c.length < U64) (w : W)
    (hG : G w) (fs : Ext4Fs D) (ho : Opened Is c fs) (inode : Inode) (f : Ext4File D)
    (hf : Ext4File.open fs inode = .ok f)
    (ht : Tame c (blockSizeOf (sbOf c)) inode.blocksBuffer)
    (hsize : inode.fileSizeBytes ≤ (U32 - 1) * blockSizeOf (sbOf c))
    (h : List (Bytes × Res (Nat × Bytes))) (s : W × Ext4File D) (hcalls : Calls dev (w, f) h s)
    (hgap : ∀ x, ¬ ExtentMap c (blockSizeOf (sbOf c)) inode.blocksBuffer (dataCalls h) x)
    (hmore : dataCalls h * blockSizeOf (sbOf c) < inode.fileSizeBytes) (buf : Bytes) :
    ∃ s' e, Returns dev s buf s' (.err e) := by
  obtain ⟨s', r, h1, h2⟩ :=
    C66_returns_partial hv c hc w hG fs ho inode f hf ht hsize h s hcalls buf
  have h3 := C65_gap hv c hc w hG fs ho inode f hf (.inr hsize) h s s' hcalls hgap hmore buf r h1
  match r with
  | .ok a => exact absurd rfl (h3 a)
  | .err e => exact ⟨s', e, h1⟩
  | .panic => exact absurd rfl h2

/-- C66 is false as stated: if an index node is its own first child, and the inode refers to it, the
first call does not return. -/
theorem C66_cycle (hv : VolumeSpec False dev G Is At) (c : Bytes) (hc : c.length < U64) (w : W)
    (hG : G w) (fs : Ext4Fs D) (ho : Opened Is c fs) (inode : Inode) (f : Ext4File D)
    (hf : Ext4File.open fs inode = .ok f) (x : Nat)
    (hin : BlockInside c (blockSizeOf (sbOf c)) x)
    (hx : ∀ node, node = inode.blocksBuffer ∨ node = blockOf c (blockSizeOf (sbOf c)) x →
      nodeDepth node ≠ 0 ∧ 0 < nodeEntries node ∧ NodeFits node ∧
        entryFirst (nodeEntry node 0) = 0 ∧ indexChild (nodeEntry node 0) = x)
    (buf : Bytes) (hb : blockSizeOf (sbOf c) ≤ buf.length) :
    ¬ ∃ s' r, Returns dev (w, f) buf s' r := by
  obtain ⟨hi, hp, -, hs⟩ := Ext4File.open_inv (w := w) hG ho hf (fun _ => True) trivial
  rintro ⟨s', r, fuel, hret⟩
  rw [Ext4File.readNextBlock_loop hi.opened hb] at hret
  have hstep : ∀ s, (Ext4File.Inv Is G c (fun _ => True) inode s ∧ s.2.blockPos = 0 ∧ ∃ n rest,
      s.2.stack = .tree (.fromInternal n) 0 :: rest ∧
        (n.storage = inode.blocksBuffer ∨ n.storage = blockOf c (blockSizeOf (sbOf c)) x)) →
      ∃ s', Ext4File.step dev buf s = (s', .ok none) ∧
        (Ext4File.Inv Is G c (fun _ => True) inode s' ∧ s'.2.blockPos = 0 ∧ ∃ n rest,
          s'.2.stack = .tree (.fromInternal n) 0 :: rest ∧
            (n.storage = inode.blocksBuffer ∨ n.storage = blockOf c (blockSizeOf (sbOf c)) x)) := by
    rintro ⟨w1, f1⟩ ⟨hi1, hp1, n, rest, hs1, hn⟩
    have hp1 : f1.blockPos = 0 := hp1
    obtain ⟨h1, h2, h3, h4, h5⟩ := hx n.storage hn
    have e1 := Ext4File.step_tree dev buf w1 f1 hs1
    obtain ⟨w', fs', hG', ho', h6⟩ := Ext4File.stepTree_branch hv hc hi1.good
      (f := { f1 with stack := rest }) hi1.opened rest h2 h3 h1
    rcases h6 with ⟨h6, -⟩ | ⟨-, ⟨h6 | h6, -⟩ | ⟨-, h6⟩⟩
    · exact absurd (h4.trans hp1.symm) h6
    · exact h6.elim
    · exact absurd (h5 ▸ hin) h6
    · have e2 := e1.trans h6
      have hi2 := Ext4File.silent_inv hv hc (Ext4File.closed_true c _) hb (.single e2) hi1
      exact ⟨_, e2, hi2.1, hp1, _, _, rfl, .inr (by rw [← h5]; rfl)⟩
  obtain ⟨s'', h1⟩ := Ext4File.loop_none hstep fuel (w, f) ⟨hi, hp, _, [], hs, .inl rfl⟩
  rw [h1] at hret
  exact absurd (Prod.mk.inj hret).2.symm (Ext4File.map_some_ne r)

omit [Build] in
/-- C67 in part: the length and the kind of an extent are those of the format, but for one length.
Missing: the length 0x8000 (`C67_longest`), and that unwritten blocks read as zeros
(`C67_unwritten`). -/
theorem C67_length_partial (e : Extent) (h : le e.storage 4 2 ≠ 0x8000) :
    e.length = extentLen e.storage ∧ (e.initialized = true ↔ ¬ ExtentUnwritten e.storage) := by
  have hlt : le e.storage 4 2 < 65536 := le_lt _ _ 2
  constructor
  · rw [Extent.length_eq]
    unfold extentLen
    split <;> omega
  · unfold Extent.initialized ExtentUnwritten
    rw [Extent.raw_eq]
    have hbit : le e.storage 4 2 &&& 0x8000 = if le e.storage 4 2 < 0x8000 then 0 else 0x8000 := by
      rw [show (0x8000 : Nat) = 2 ^ 15 from rfl, Nat.and_two_pow,
        Nat.testBit_eq_decide_div_mod_eq]
      split
      · rw [Nat.div_eq_of_lt (by omega)]; rfl
      · have : le e.storage 4 2 / 2 ^ 15 = 1 := by omega
        rw [this]; rfl
    rw [hbit]
    split
    · exact ⟨fun _ => by omega, fun _ => rfl⟩
    · exact ⟨fun h => (by cases h), fun h' => absurd (by omega) h'⟩

omit [Build] in
/-- C67 is false as stated: an extent of the length 0x8000 is taken to be empty and unwritten. -/
theorem C67_longest (e : Extent) (h : le e.storage 4 2 = 0x8000) :
    e.length = 0 ∧ e.initialized = false ∧ extentLen e.storage = 32768 ∧
      ¬ ExtentUnwritten e.storage := by
  refine ⟨?_, ?_, ?_, ?_⟩
  · rw [Extent.length_eq, h]
  · unfold Extent.initialized; rw [Extent.raw_eq, h]; rfl
  · unfold extentLen; rw [h]; rfl
  · unfold ExtentUnwritten; omega

/-- C67 is false as stated: the first block of an unwritten extent is read from the volume. -/
theorem C67_unwritten (hv : VolumeSpec False dev G Is At) (c : Bytes) (hc : c.length < U64) (w : W)
    (hG : G w) (fs : Ext4Fs D) (ho : Opened Is c fs) (inode : Inode) (f : Ext4File D)
    (hf : Ext4File.open fs inode = .ok f) (h1 : nodeDepth inode.blocksBuffer = 0)
    (h2 : 0 < nodeEntries inode.blocksBuffer) (h3 : NodeFits inode.blocksBuffer)
    (h4 : entryFirst (nodeEntry inode.blocksBuffer 0) = 0)
    (h5 : ExtentUnwritten (nodeEntry inode.blocksBuffer 0)) (h6 : inode.fileSizeBytes ≠ 0)
    (buf : Bytes) (hb : blockSizeOf (sbOf c) ≤ buf.length)
    (hin : extentStart (nodeEntry inode.blocksBuffer 0) * blockSizeOf (sbOf c) + buf.length
      ≤ c.length) :
    ∃ s', Returns dev (w, f) buf s' (.ok (min inode.fileSizeBytes (blockSizeOf (sbOf c)),
      (c.drop (extentStart (nodeEntry inode.blocksBuffer 0) * blockSizeOf (sbOf c))).take
        buf.length)) := by
  obtain ⟨hi, hp, hbp, hs⟩ := Ext4File.open_inv (w := w) hG ho hf (fun _ => True) trivial
  have e1 := Ext4File.step_tree dev buf w f hs
  have hst : (ExtentNode.fromInode inode).storage = inode.blocksBuffer := rfl
  rw [Ext4File.stepTree_leaf dev w _ _ (by rw [hst]; exact h2) (by rw [hst]; exact h3)
    (by rw [hst]; exact h1), if_pos (by rw [hst, h4]; exact hp.symm)] at e1
  have hi1 := Ext4File.silent_inv hv hc (Ext4File.closed_true c _) hb (.single e1) hi
  have hlen : 0 < (Extent.mk (nodeEntry inode.blocksBuffer 0)).length := by
    unfold ExtentUnwritten at h5
    have hlt : le (nodeEntry inode.blocksBuffer 0) 4 2 < 65536 := le_lt _ _ 2
    rw [Extent.length_eq]
    show 0 < le (nodeEntry inode.blocksBuffer 0) 4 2 % 0x8000
    omega
  have e2 := Ext4File.step_extent dev buf w { f with
    stack := [.extent ⟨nodeEntry inode.blocksBuffer 0⟩ 0, .tree (.fromInternal (.fromInode inode)) 1] }
    rfl
  obtain ⟨w', fs', hG', ho', h7⟩ := Ext4File.stepExtent_block hv hc hG
    (f := { f with stack := [.tree (.fromInternal (.fromInode inode)) 1] }) hi.opened buf hb
    [.tree (.fromInternal (.fromInode inode)) 1] hlen
  have hsz : f.fileSizeBytes = inode.fileSizeBytes := by
    have : f.inode = inode := hi.inode
    unfold Ext4File.fileSizeBytes; rw [this]
  rcases h7 with ⟨h7, -⟩ | ⟨-, ⟨h7 | h7, -⟩ | ⟨-, h7⟩⟩
  · have h7 : f.fileSizeBytes ≤ f.bytePos := h7
    omega
  · exact h7.elim
  · have h7 : c.length < (extentStart (nodeEntry inode.blocksBuffer 0) + 0) * _ + buf.length := h7
    rw [Nat.add_zero] at h7
    omega
  · have e3 := e2.trans h7
    rw [if_pos (by show f.blockPos + 1 < _; omega)] at e3
    have e4 : (some <$> Res.ok (min inode.fileSizeBytes (blockSizeOf (sbOf c)),
        (c.drop (extentStart (nodeEntry inode.blocksBuffer 0) * blockSizeOf (sbOf c))).take
          buf.length) : Res (Option (Nat × Bytes)))
        = .ok (some (min (f.fileSizeBytes - f.bytePos) (blockSizeOf (sbOf c)),
          slice c ((extentStart (nodeEntry inode.blocksBuffer 0) + 0) * blockSizeOf (sbOf c))
            buf.length)) := by
      rw [hsz, hbp, Nat.add_zero, Nat.sub_zero]
      rfl
    exact ⟨_, (Ext4File.returns_iff hi.opened hb).2 ⟨_, .single e1, by rw [e4]; exact e3⟩⟩

omit [Build] in
/-- C68 in part: the check `valid` accepts exactly the nodes with the magic number whose entries and
checksum fit and, if there is a checksum, whose checksum after the last entry is that of all bytes
before it.  Missing: the check is not used when a file is read (`C68_magic_ignored`,
`C68_too_many`), and it looks for the checksum in another place than the kernel
(`C68_kernel_node_refused`). -/
theorem C68_valid_partial (n : ExtentNode) :
    n.valid = true ↔ NodeSound n.checksumSeed (12 + 12 * nodeEntries n.storage) n.storage := by
  unfold ExtentNode.valid NodeSound NodeFits
  rw [ExtentNode.header_size, n.header_at (f := .magic) (off := 0) (w := 2) (by decide +kernel)]
  by_cases h1 : n.storage.length < 12
  · rw [if_pos h1]
    exact ⟨fun h => (by cases h), fun h => (by omega)⟩
  rw [if_neg h1]
  by_cases h2 : le n.storage 0 2 = 0xf30a
  rotate_left
  · rw [if_pos (by simpa using h2)]
    exact ⟨fun h => (by cases h), fun h => absurd h.2.1 h2⟩
  rw [if_neg (by simpa using h2)]
  simp only [ExtentNode.entriesSize_eq, ExtentNode.entriesAndTail_eq, List.length_drop]
  rcases hs : n.checksumSeed with _ | seed
  · simp only
    by_cases h3 : n.storage.length - 12 < nodeEntries n.storage * 12 + 0
    · rw [if_pos h3]
      exact ⟨fun h => (by cases h), fun h => (by omega)⟩
    · rw [if_neg h3]
      exact ⟨fun _ => ⟨by omega, h2, by omega, fun _ h => (by cases h)⟩, fun _ => rfl⟩
  · simp only
    by_cases h3 : n.storage.length - 12 < nodeEntries n.storage * 12 + 4
    · rw [if_pos h3]
      exact ⟨fun h => (by cases h), fun h => (by have := (h.2.2.2 seed rfl).1; omega)⟩
    · rw [if_neg h3]
      have h4 : leNat (slice (n.storage.drop 12) (nodeEntries n.storage * 12) 4)
          = le n.storage (12 + 12 * nodeEntries n.storage) 4 := by
        unfold slice le
        rw [List.drop_drop, Nat.mul_comm]
      rw [h4, Nat.mul_comm (nodeEntries n.storage) 12]
      have h5 : le n.storage (12 + 12 * nodeEntries n.storage) 4 < 2 ^ 32 := le_lt _ _ 4
      have h6 : (le n.storage (12 + 12 * nodeEntries n.storage) 4
            == (ext4Crc32c (BitVec.ofNat 32 seed)
              (n.storage.take (12 + 12 * nodeEntries n.storage))).toNat) = true
          ↔ IsCrc32c (BitVec.ofNat 32 seed) (n.storage.take (12 + 12 * nodeEntries n.storage))
            (BitVec.ofNat 32 (le n.storage (12 + 12 * nodeEntries n.storage) 4)) := by
        rw [← C52_polynomial_division, beq_iff_eq]
        constructor
        · intro h
          rw [h, BitVec.ofNat_toNat, BitVec.setWidth_eq]
        · intro h
          rw [h, BitVec.toNat_ofNat, Nat.mod_eq_of_lt h5]
      rw [h6]
      constructor
      · intro h
        refine ⟨by omega, h2, by omega, fun s hs => ?_⟩
        cases hs
        exact ⟨by omega, h⟩
      · exact fun h => (h.2.2.2 seed rfl).2

/-- C68 is false as stated: if the node in the inode claims more entries than its 60 bytes hold, the
first read panics. -/
theorem C68_too_many (c : Bytes) (w : W) (hG : G w) (fs : Ext4Fs D) (ho : Opened Is c fs)
    (inode : Inode) (f : Ext4File D) (hf : Ext4File.open fs inode = .ok f)
    (h : inode.blocksBuffer.length < 12 + 12 * nodeEntries inode.blocksBuffer)
    (h0 : nodeEntries inode.blocksBuffer ≠ 0) (buf : Bytes)
    (hb : blockSizeOf (sbOf c) ≤ buf.length) : ∃ s', Returns dev (w, f) buf s' .panic := by
  obtain ⟨hi, hp, hbp, hs⟩ := Ext4File.open_inv (w := w) hG ho hf (fun _ => True) trivial
  have e1 := Ext4File.step_tree dev buf w f hs
  have hst : (ExtentNode.fromInode inode).storage = inode.blocksBuffer := rfl
  rw [Ext4File.stepTree_panics dev w _ _ (by rw [hst]; omega)
    (by rw [hst]; unfold NodeFits; omega)] at e1
  exact ⟨_, (Ext4File.returns_iff hi.opened hb).2 ⟨_, .refl _, e1⟩⟩

end
end MdRecover
