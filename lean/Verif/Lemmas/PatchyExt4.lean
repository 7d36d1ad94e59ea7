import Verif.Lemmas.Patchy
import Verif.Lemmas.Ext4Path

namespace MdRecover
variable [Build]
open MdSpec

namespace Agree
variable {W D : Type} {bad : Nat → Prop} {c : Bytes} {dev dev' : StreamDev W D} {G : W → Prop}
  {Is : D → Bytes → Prop} {At : W → D → Nat → Prop}

/-! ## Opening -/

omit [Build] in
theorem readGroups (h : Agree bad c dev dev' G Is At) {size : Nat} :
    ∀ (n : Nat) {w : W} {d : D} {p : Nat}, G w → Is d c → At w d p → Intact bad c p (n * size) →
      Ext4Fs.readGroups dev size n (w, d) = Ext4Fs.readGroups dev' size n (w, d)
  | 0, w, d, p, hG, hI, hA, hi => rfl
  | n + 1, w, d, p, hG, hI, hA, hi => by
    have hz : (zeros size).length = size := List.length_replicate
    have hmul : (n + 1) * size = n * size + size := Nat.succ_mul n size
    rw [Ext4Fs.readGroups, Ext4Fs.readGroups]
    refine SM.bind_congr (h.readExact _ hG hI hA (by rw [hz]; exact hi.mono (Nat.le_refl _) (by omega))) ?_
    rintro b ⟨w1, d1⟩ h1
    obtain ⟨w2, d2, hG2, hI2, h2⟩ := volume_readExact h.perfect hG hI hA (zeros size)
    rcases h2 with ⟨hF, -⟩ | ⟨-, -, h2⟩ | ⟨-, hA2, h2⟩
    · exact hF.elim
    · rw [h1] at h2; cases h2
    · rw [h1] at h2
      cases h2
      rw [hz] at hA2
      refine SM.bind_congr (readGroups h n hG2 hI2 hA2 (hi.mono (by omega) (by omega))) fun _ _ _ => rfl

theorem openBody (h : Agree bad c dev dev' G Is At) {w : W} {d : D} (hG : G w) (hI : Is d c)
    (hb : TableChecked c) (hf : FsIntact bad c) : Ext4Fs.openBody dev (w, d) = Ext4Fs.openBody dev' (w, d) := by
  unfold Ext4Fs.openBody
  rw [h.seek]
  refine SM.bind_congr rfl ?_
  rintro q ⟨w1, d1⟩ h1
  obtain ⟨hG1, hI1, h2⟩ := h.perfect.seek hG hI 1024 (by omega) h1
  rcases h2 with ⟨q', h2, hA1, hq1, hq2⟩ | ⟨-, e, h2⟩
  rotate_left
  · cases h2
  cases h2
  have hz : (zeros ext4SbLayout.size).length = 1024 := by
    rw [show ext4SbLayout.size = 1024 by decide +kernel]; exact List.length_replicate
  have hi : Intact bad c q 1024 := by
    by_cases hl : 1024 ≤ c.length
    · rw [hq1 hl]; exact hf.1
    · exact .beyond (hq2 (by omega))
  refine SM.bind_congr ?_ ?_
  · unfold Ext4Superblock.read
    exact SM.bind_congr (h.readExact _ hG1 hI1 hA1 (by rw [hz]; exact hi)) fun _ _ _ => rfl
  rintro sb ⟨w2, d2⟩ h3
  obtain ⟨w2', d2', r, h4, hG2, hI2, h5⟩ := Ext4Fs.sb_read_spec h.perfect hG1 hI1 hA1
  rw [h3] at h4
  cases h4
  rcases h5 with ⟨-, e, h5⟩ | ⟨hp, hok, h5⟩
  · cases h5
  have hq : q = 1024 := by
    by_contra hne
    have : ¬ 1024 ≤ c.length := fun h => hne (hq1 h)
    have := hq2 (by omega)
    omega
  subst hq
  obtain ⟨sb', hsb⟩ : ∃ sb' : Ext4Superblock, sb' = ⟨slice c 1024 1024⟩ := ⟨_, rfl⟩
  rw [← hsb] at h5
  cases h5
  have hsbb : sb.bytes = sbOf c := by rw [hsb]; rfl
  change Ext4SbOk (sbOf c) at hok
  have hval : sb.valid = .ok true := sb.valid_iff.2 (hsbb ▸ hok)
  have hbpg : sb.blocksPerGroup = le (sbOf c) 0x20 4 := by
    rw [← hsbb]; exact Ext4Superblock.get_at (by decide +kernel) sb
  have hds : sb.groupDescriptorSize = le (sbOf c) 0xfe 2 := by
    rw [← hsbb]; exact Ext4Superblock.get_at (by decide +kernel) sb
  have hfd : sb.firstDataBlock = le (sbOf c) 0x14 4 := by
    rw [← hsbb]; exact Ext4Superblock.get_at (by decide +kernel) sb
  have hblocks : sb.blocksCount = blocksOf (sbOf c) := by
    rw [← hsbb]; exact (C56_wide sb).1
  have hbs : sb.blockSizeBytes = .ok (blockSizeOf (sbOf c)) := by
    rw [← hsbb]; exact (C55_sizes sb hval).1
  clear hsb
  refine SM.bind_congr rfl fun n s3 h6 => ?_
  obtain ⟨rfl, h7⟩ := Prod.mk.inj h6
  have hn : n = groupsOf (sbOf c) := by
    unfold Ext4Fs.divCeilP at h7
    rw [hbpg, hblocks] at h7
    split at h7
    · cases h7
    · cases h7; rfl
  split
  · rfl
  refine SM.bind_congr rfl fun bs s3 h8 => ?_
  obtain ⟨rfl, h9⟩ := Prod.mk.inj h8
  rw [hbs] at h9
  cases h9
  refine SM.bind_congr rfl fun p s3 h10 => ?_
  obtain ⟨rfl, h11⟩ := Prod.mk.inj h10
  rw [hfd] at h11
  by_cases hov : groupTableOf (sbOf c) < U64
  · have hp' : p = groupTableOf (sbOf c) := by
      have : mul64 (le (sbOf c) 0x14 4 + 1) (blockSizeOf (sbOf c)) = .ok (groupTableOf (sbOf c)) :=
        if_pos hov
      rw [this] at h11
      cases h11; rfl
    subst hp'
    refine SM.bind_congr rfl ?_
    rintro q ⟨w3, d3⟩ h12
    obtain ⟨hG3, hI3, h13⟩ := h.perfect.seek hG2 hI2 _ hov h12
    rcases h13 with ⟨q', h13, hA3, hr1, hr2⟩ | ⟨-, e, h13⟩
    rotate_left
    · cases h13
    cases h13
    refine SM.bind_congr rfl fun _ s4 h14 => ?_
    obtain ⟨rfl, -⟩ := Prod.mk.inj h14
    refine SM.bind_congr (h.readGroups _ hG3 hI3 hA3 ?_) fun _ _ _ => rfl
    by_cases hl : groupTableOf (sbOf c) ≤ c.length
    · rw [hr1 hl, hn, hds]; exact hf.2
    · exact .beyond (hr2 (by omega))
  · have : mul64 (le (sbOf c) 0x14 4 + 1) (blockSizeOf (sbOf c)) = .panic :=
      (if_neg hov).trans (if_pos (hb.resolve_right hov))
    rw [this] at h11
    cases h11

theorem openFs (h : Agree bad c dev dev' G Is At) {w : W} {d : D} (hG : G w) (hI : Is d c)
    (hb : TableChecked c) (hf : FsIntact bad c) : Ext4Fs.open dev d w = Ext4Fs.open dev' d w := by
  unfold Ext4Fs.open SM.withLocal
  rw [SM.bind_congr (h.openBody hG hI hb hf) fun _ _ _ => rfl]

/-! ## Inodes -/

theorem readInode (h : Agree bad c dev dev' G Is At) {s : W × Ext4Fs D} (hG : G s.1) (ho : Opened Is c s.2)
    {n : Nat} (hi : Intact bad c (inodeSlot c n) (le (sbOf c) 0x58 2)) :
    Ext4Fs.readInode dev n s = Ext4Fs.readInode dev' n s := by
  unfold Ext4Fs.readInode
  refine SM.bind_congr rfl ?_
  rintro ⟨w, fs⟩ s1 h1
  cases h1
  refine SM.bind_congr rfl fun off s1 h1 => ?_
  obtain ⟨rfl, h2⟩ := Prod.mk.inj h1
  have hlt := Ext4Sim.inodeOffset_lt h2
  have hoff : off = inodeSlot c n := by
    rw [Ext4Fs.inodeOffset_spec ho] at h2
    split at h2
    · cases h2
    split at h2
    · cases h2
    split at h2
    · cases h2; rfl
    · cases h2
  subst hoff
  have hz : (zeros fs.superblock.inodeSize).length = le (sbOf c) 0x58 2 := by
    rw [ho.inodeSize]; exact List.length_replicate
  exact h.fsReadAt _ hG ho.device hlt (by rw [hz]; exact hi) _

theorem openFile (h : Agree bad c dev dev' G Is At) {s : W × Ext4Fs D} (hG : G s.1) (ho : Opened Is c s.2)
    {n : Nat} (hi : Intact bad c (inodeSlot c n) (le (sbOf c) 0x58 2)) :
    Ext4Fs.openFile dev n s = Ext4Fs.openFile dev' n s := by
  unfold Ext4Fs.openFile
  refine SM.bind_congr rfl ?_
  rintro ⟨w, fs⟩ s1 h1
  cases h1
  have hcl : Ext4Fs.tryClone dev fs = Ext4Fs.tryClone dev' fs := by
    unfold Ext4Fs.tryClone; rw [h.tryClone]
  rw [hcl]
  refine SM.bind_congr rfl ?_
  rintro fs2 ⟨w1, fs1⟩ h2
  have h3 : ∃ w', G w' ∧ (w1, fs1) = (w', fs) := by
    unfold SM.zoom Ext4Fs.tryClone at h2
    rcases h4 : dev'.tryClone fs.device w with ⟨w', r⟩
    obtain ⟨hG', -⟩ := h.perfect.tryClone hG ho.device h4
    refine ⟨w', hG', ?_⟩
    rcases r with d | e | _
    · rw [SM.bind_ok (h := h4)] at h2
      exact (Prod.mk.inj h2).1.symm
    · rw [SM.bind_err (h := h4)] at h2
      cases (Prod.mk.inj h2).2
    · rw [SM.bind_panic (h := h4)] at h2
      cases (Prod.mk.inj h2).2
  obtain ⟨w', hG', h3⟩ := h3
  cases h3
  exact SM.bind_congr (h.readInode (s := (_, fs)) hG' ho hi) fun _ _ _ => rfl

/-! ## Files -/

/-- Nothing that nodes with `P` refer to is `bad`. -/
structure Clear (bad : Nat → Prop) (c : Bytes) (P : Bytes → Prop) : Prop where
  closed : Ext4File.Closed P c (blockSizeOf (sbOf c))
  child : ∀ node i, P node → NodeFits node → i < nodeEntries node → nodeDepth node ≠ 0 →
    Intact bad c (indexChild (nodeEntry node i) * blockSizeOf (sbOf c)) (blockSizeOf (sbOf c))
  extent : ∀ node i j, P node → NodeFits node → i < nodeEntries node → nodeDepth node = 0 →
    j < extentLen (nodeEntry node i) →
    Intact bad c ((extentStart (nodeEntry node i) + j) * blockSizeOf (sbOf c)) (blockSizeOf (sbOf c))

omit [Build] in
theorem _root_.MdSpec.InodeIntact.clear {n : Nat} (h : InodeIntact bad c n) :
    Clear bad c (TreeNode c (blockSizeOf (sbOf c)) (rootNode c n)) where
  closed := fun node i h1 h2 h3 h4 h5 => .child node i h1 h2 h3 h4 h5
  child := fun node i h1 h2 h3 h4 => h.2 _ ⟨node, i, h1, h2, h3, .inl ⟨h4, rfl⟩⟩
  extent := fun node i j h1 h2 h3 h4 h5 => h.2 _ ⟨node, i, h1, h2, h3, .inr ⟨h4, j, h5, rfl⟩⟩

theorem step (h : Agree bad c dev dev' G Is At) {P : Bytes → Prop} (hP : Clear bad c P) {i : Inode}
    {s : W × Ext4File D} (hi : Ext4File.Inv Is G c P i s) {buf : Bytes}
    (hb : buf.length = blockSizeOf (sbOf c)) : Ext4File.step dev buf s = Ext4File.step dev' buf s := by
  obtain ⟨w, f⟩ := s
  have hst : Ext4File.StackOk P f.blockPos f.stack := hi.stack
  have hz : (zeros (blockSizeOf (sbOf c))).length = blockSizeOf (sbOf c) := List.length_replicate
  match hs : f.stack with
  | [] => rw [Ext4File.step_empty dev buf w f hs, Ext4File.step_empty dev' buf w f hs]
  | .tree t pos :: rest =>
    rw [hs] at hst
    obtain ⟨hx, -⟩ := hst
    obtain ⟨n, pos', heq, hPn⟩ : Ext4File.TreeOk P (.tree t pos) := by
      rcases hx with hx | ⟨_, _, _, hx, _⟩
      · exact hx
      · cases hx
    cases heq
    rw [Ext4File.step_tree dev buf w f hs, Ext4File.step_tree dev' buf w f hs]
    by_cases h1 : nodeEntries n.storage ≤ pos
    · rw [Ext4File.stepTree_done dev w _ rest h1, Ext4File.stepTree_done dev' w _ rest h1]
    have h1 : pos < nodeEntries n.storage := by omega
    by_cases h2 : NodeFits n.storage
    rotate_left
    · rw [Ext4File.stepTree_panics dev w _ rest h1 h2, Ext4File.stepTree_panics dev' w _ rest h1 h2]
    by_cases h3 : nodeDepth n.storage = 0
    · rw [Ext4File.stepTree_leaf dev w _ rest h1 h2 h3, Ext4File.stepTree_leaf dev' w _ rest h1 h2 h3]
    · have hlt : pos < (ExtentTree.fromInternal n).entryCount := by
        unfold ExtentTree.entryCount
        rw [ExtentTree.node_fromInternal, ExtentNode.entryCount_eq]; omega
      unfold Ext4File.stepTree
      rw [if_pos hlt, if_pos hlt, ExtentTree.fromInternal_branch h3]
      show Ext4File.stepBranch dev n pos rest _ = Ext4File.stepBranch dev' n pos rest _
      unfold Ext4File.stepBranch
      rw [Ext4File.get_bind, Ext4File.get_bind, ExtentNode.entryAt_fits h1 h2, Ext4File.lift_bind,
        Ext4File.lift_bind]
      simp only [ExtentIndex.block_eq, ExtentIndex.leaf_eq]
      split
      · rfl
      have hbs : (Ext4File.blockSize { f with stack := rest }) = .ok (blockSizeOf (sbOf c)) :=
        Ext4File.blockSize_eq hi.opened
      rw [hbs, Ext4File.lift_bind, Ext4File.lift_bind]
      refine SM.bind_congr (SM.zoom_congr (h.readBlock hi.good hi.opened ?_)) fun _ _ _ => rfl
      rw [hz]
      exact hP.child _ _ hPn h2 h1 h3
  | .extent e pos :: rest =>
    rw [hs] at hst
    obtain ⟨hx, -⟩ := hst
    obtain ⟨node, k, j, heq, hPn, h1, h2, h3, h4⟩ : Ext4File.ExtentOk P f.blockPos (.extent e pos) := by
      rcases hx with ⟨_, _, hx, _⟩ | hx
      · cases hx
      · exact hx
    cases heq
    rw [Ext4File.step_extent dev buf w f hs, Ext4File.step_extent dev' buf w f hs]
    by_cases h5 : (Extent.mk (nodeEntry node k)).length ≤ pos
    · rw [Ext4File.stepExtent_done dev buf w _ rest h5, Ext4File.stepExtent_done dev' buf w _ rest h5]
    have h5 : pos < (Extent.mk (nodeEntry node k)).length := by omega
    unfold Ext4File.stepExtent
    rw [Ext4File.get_bind, Ext4File.get_bind]
    simp only [Extent.start_eq]
    rw [if_pos h5, if_pos h5]
    split
    · rfl
    refine SM.bind_congr (SM.zoom_congr (h.readBlock hi.good hi.opened ?_)) fun _ _ _ => rfl
    rw [hb]
    exact hP.extent _ _ _ hPn h3 h2 h1 (Nat.lt_of_lt_of_le h5 (Extent.length_le _))

theorem loop (h : Agree bad c dev dev' G Is At) (hc : c.length < U64) {P : Bytes → Prop}
    (hP : Clear bad c P) {i : Inode} {buf : Bytes} (hb : buf.length = blockSizeOf (sbOf c)) :
    ∀ (fuel : Nat) {s : W × Ext4File D}, Ext4File.Inv Is G c P i s →
      Ext4File.loop dev buf fuel s = Ext4File.loop dev' buf fuel s
  | 0, s, hi => rfl
  | fuel + 1, s, hi => by
    rw [Ext4File.loop, Ext4File.loop]
    refine SM.bind_congr (h.step hP hi hb) fun a s' h1 => ?_
    rcases a with _ | a
    · obtain ⟨h2, -⟩ := Ext4File.step_inv h.perfect hc hP.closed hi (Nat.le_of_eq hb.symm) h1
        (by intro h; cases h) (.inr (.inr (.inr rfl)))
      exact loop h hc hP hb fuel h2
    · rfl

theorem readNextBlock (h : Agree bad c dev dev' G Is At) (hc : c.length < U64) {P : Bytes → Prop}
    (hP : Clear bad c P) {i : Inode} {buf : Bytes} (hb : buf.length = blockSizeOf (sbOf c)) (fuel : Nat)
    {s : W × Ext4File D} (hi : Ext4File.Inv Is G c P i s) :
    Ext4File.readNextBlock dev fuel buf s = Ext4File.readNextBlock dev' fuel buf s := by
  obtain ⟨w, f⟩ := s
  rw [Ext4File.readNextBlock_loop hi.opened (Nat.le_of_eq hb.symm),
    Ext4File.readNextBlock_loop hi.opened (Nat.le_of_eq hb.symm), h.loop hc hP hb fuel hi]

theorem readBlocks (h : Agree bad c dev dev' G Is At) (hc : c.length < U64) {P : Bytes → Prop}
    (hP : Clear bad c P) {i : Inode} (hw : BlocksCounted c i.fileSizeBytes) (rounds : Nat) :
    ∀ (k : Nat) {s : W × Ext4File D}, Ext4File.Inv Is G c P i s →
      MdSpec.readBlocks dev rounds (blockSizeOf (sbOf c)) k s =
        MdSpec.readBlocks dev' rounds (blockSizeOf (sbOf c)) k s
  | 0, s, hi => rfl
  | k + 1, s, hi => by
    have hz : (zeros (blockSizeOf (sbOf c))).length = blockSizeOf (sbOf c) := List.length_replicate
    rw [MdSpec.readBlocks, MdSpec.readBlocks]
    refine SM.bind_congr (h.readNextBlock hc hP hz rounds hi) fun a s' h1 => ?_
    rcases a with _ | ⟨n, b⟩
    · rfl
    obtain ⟨h2, -⟩ := Ext4File.returns_inv h.perfect hc hP.closed hi (r := .ok (n, b)) ⟨rounds, h1⟩
      (fun h => by cases h) hw
    by_cases hn : n = 0
    · simp only [if_pos hn]
    · simp only [if_neg hn]
      exact SM.bind_congr (readBlocks h hc hP hw rounds k h2) fun _ _ _ => rfl

/-! ## Directories -/

theorem advance (h : Agree bad c dev dev' G Is At) (hc : c.length < U64) {P : Bytes → Prop}
    (hP : Clear bad c P) {i : Inode} (fuel : Nat) {s : W × Ext4Directory D}
    (hi : Ext4Directory.Inv Is G c P i s) : Ext4Directory.advance dev fuel s = Ext4Directory.advance dev' fuel s := by
  have hbs := Ext4File.blockSize_eq hi.file.opened
  have hz : (zeros (blockSizeOf (sbOf c))).length = blockSizeOf (sbOf c) := List.length_replicate
  have h1 := h.readNextBlock hc hP hz fuel hi.file
  rcases h2 : Ext4File.readNextBlock dev' fuel (zeros (blockSizeOf (sbOf c))) (s.1, s.2.internal) with ⟨t, r⟩
  rw [h2] at h1
  rw [Ext4Directory.advance_eq hbs h1, Ext4Directory.advance_eq hbs h2]

theorem dirLoop (h : Agree bad c dev dev' G Is At) (hc : c.length < U64) {P : Bytes → Prop}
    (hP : Clear bad c P) {i : Inode} (fuel : Nat) :
    ∀ (n : Nat) {s : W × Ext4Directory D}, Ext4Directory.Inv Is G c P i s →
      Ext4Directory.loop dev fuel n s = Ext4Directory.loop dev' fuel n s
  | 0, s, hi => rfl
  | n + 1, s, hi => by
    by_cases hcur : ∃ b, s.2.current = .block b
    rotate_left
    · have hcur : ∀ b, s.2.current ≠ .block b := fun b hb => hcur ⟨b, hb⟩
      rw [Ext4Directory.loop_fin hcur, Ext4Directory.loop_fin hcur]
    obtain ⟨b, hcur⟩ := hcur
    rw [Ext4Directory.loop_block hcur, Ext4Directory.loop_block hcur]
    have hok := hi.current
    rw [hcur] at hok
    rcases Ext4Directory.currentOk_next hok with ⟨e, b', h1, -⟩ | h1
    · rw [h1]
    rw [h1]
    have hi' : Ext4Directory.Inv Is G c P i (Ext4Directory.withCurrent s (.block b)) :=
      ⟨hi.file, hok, hi.counted⟩
    simp only [h.advance hc hP fuel hi']
    rcases h2 : Ext4Directory.advance dev' fuel (Ext4Directory.withCurrent s (.block b)) with ⟨s1, r⟩
    match r with
    | .ok none => rfl
    | .ok (some ()) =>
      obtain ⟨h3, -⟩ := Ext4Directory.advances_inv h.perfect hc hP.closed hi' (r := .ok ()) ⟨fuel, h2⟩
        (fun h => by cases h)
      exact dirLoop h hc hP fuel n h3
    | .err e => rfl
    | .panic => rfl

theorem readNextEntry (h : Agree bad c dev dev' G Is At) (hc : c.length < U64) {P : Bytes → Prop}
    (hP : Clear bad c P) {i : Inode} (fuel : Nat) {s : W × Ext4Directory D}
    (hi : Ext4Directory.Inv Is G c P i s) :
    Ext4Directory.readNextEntry dev fuel s = Ext4Directory.readNextEntry dev' fuel s := by
  by_cases hs : s.2.current = .start
  · rw [Ext4Directory.readNextEntry_start hs, Ext4Directory.readNextEntry_start hs, h.advance hc hP fuel hi]
    rcases h2 : Ext4Directory.advance dev' fuel s with ⟨s1, r⟩
    match r with
    | .ok none => rfl
    | .ok (some ()) =>
      obtain ⟨h3, -⟩ := Ext4Directory.advances_inv h.perfect hc hP.closed hi (r := .ok ()) ⟨fuel, h2⟩
        (fun h => by cases h)
      exact h.dirLoop hc hP fuel fuel h3
    | .err e => rfl
    | .panic => rfl
  · rw [Ext4Directory.readNextEntry_other hs, Ext4Directory.readNextEntry_other hs]
    exact h.dirLoop hc hP fuel fuel hi

theorem lookUp (h : Agree bad c dev dev' G Is At) (hc : c.length < U64) {P : Bytes → Prop}
    (hP : Clear bad c P) {i : Inode} (rounds : Nat) (name : Bytes) :
    ∀ (k : Nat) {s : W × Ext4Directory D}, Ext4Directory.Inv Is G c P i s →
      MdSpec.lookUp dev rounds name k s = MdSpec.lookUp dev' rounds name k s
  | 0, s, hi => rfl
  | k + 1, s, hi => by
    rw [MdSpec.lookUp, MdSpec.lookUp]
    refine SM.bind_congr (h.readNextEntry hc hP rounds hi) fun a s' h1 => ?_
    rcases a with _ | _ | e
    · rfl
    · rfl
    obtain ⟨h2, -⟩ := Ext4Directory.entryReturns_inv h.perfect hc hP.closed (r := .ok (some e)) ⟨rounds, h1⟩ hi
      (fun h => by cases h)
    by_cases hw : e.inode ≠ 0 ∧ e.name.bytes = name
    · simp only
      rw [if_pos hw, if_pos hw]
    · simp only
      rw [if_neg hw, if_neg hw]
      exact lookUp h hc hP rounds name k h2

/-! ## Paths -/

/-- A directory that was opened. -/
theorem directory_inv (h : Agree bad c dev dev' G Is At) {w w' : W} {fs fs' : Ext4Fs D} (hG : G w)
    (ho : Opened Is c fs) {n : Nat} {records : List Bytes} (hd : DirectoryAt c n records)
    {d : Ext4Directory D} (hG' : G w')
    (h1 : Ext4Fs.openFile dev' n (w, fs) = ((w', fs'), .ok (.directory d))) :
    ∃ i, Ext4Directory.Inv Is G c (TreeNode c (blockSizeOf (sbOf c)) (rootNode c n)) i (w', d) := by
  obtain ⟨xs, ess, seed, -, -, h32, hsize, -⟩ := hd.blocks
  obtain ⟨-, -, -, -, -, i, fs2, hi, ho2, -, -, -, h3⟩ := C75_success h.perfect c w w' fs fs' hG ho n _ h1
  obtain ⟨-, -, k1, -, -, -, -, -, k2, -⟩ := C60_fields _ _ _ i hi
  have k1 : i.fileSizeBytes = sizeOf c n := k1
  have k2 : i.blocksBuffer = rootNode c n := k2
  exact ⟨i, (Ext4Directory.open_inv (w := w') hG' ho2 h3 _ (by rw [k2]; exact .root)
    (.inr (by rw [k1, hsize]; exact Nat.mul_le_mul_right _ (by omega)))).1⟩

/-- Reading a file at the end of a path. -/
theorem follow_file (h : Agree bad c dev dev' G Is At) (hc : c.length < U64) {w : W} {fs : Ext4Fs D}
    (hG : G w) (ho : Opened Is c fs) {n : Nat} {content : Bytes} (hf : FileAt c n content)
    (hi : InodeIntact bad c n) (rounds : Nat) :
    follow dev rounds [] n (w, fs) = follow dev' rounds [] n (w, fs) := by
  obtain ⟨xs, -, -, h32, hsize, -⟩ := hf.blocks
  rw [follow, follow]
  refine SM.bind_congr (h.openFile (s := (w, fs)) hG ho hi.1) ?_
  rintro x ⟨w', fs'⟩ h1
  obtain ⟨w1, fs1, r, h2, hG', -, -, -⟩ := C75_outcome h.perfect c hc w fs hG ho n hf.readable
  rw [h1] at h2
  cases h2
  rcases x with d | f | t
  · rfl
  · obtain ⟨-, -, -, -, -, i, fs2, hin, ho2, -, -, h3, -⟩ :=
      C75_success h.perfect c w w' fs fs' hG ho n _ h1
    obtain ⟨-, -, k1, -, -, -, -, -, k2, -⟩ := C60_fields _ _ _ i hin
    have k1 : i.fileSizeBytes = sizeOf c n := k1
    have k2 : i.blocksBuffer = rootNode c n := k2
    have hinv := (Ext4File.open_inv (w := w') hG' ho2 h3
      (TreeNode c (blockSizeOf (sbOf c)) (rootNode c n)) (by rw [k2]; exact .root)).1
    refine SM.bind_congr rfl fun bs s1 h4 => ?_
    obtain ⟨rfl, h5⟩ := Prod.mk.inj h4
    rw [Ext4File.blockSize_eq hinv.opened] at h5
    cases h5
    refine SM.bind_congr (SM.zoom_congr (h.readBlocks hc hi.clear ?_ rounds rounds hinv)) fun _ _ _ => rfl
    right
    rw [k1]
    exact Nat.le_trans hsize (Nat.mul_le_mul_right _ (by omega))
  · rfl

/-- Following a path. -/
theorem follow_leads (h : Agree bad c dev dev' G Is At) (hc : c.length < U64) {n m : Nat}
    {front : List Bytes} (hl : Leads c CleanName n front m) :
    (∀ f r k, front = f ++ r → Leads c CleanName n f k → InodeIntact bad c k) →
    ∀ {w : W} {fs : Ext4Fs D}, G w → Opened Is c fs →
      ∃ w' fs' N, G w' ∧ Opened Is c fs' ∧ ∀ rounds, N ≤ rounds → ∀ rest,
        follow dev rounds (front ++ rest) n (w, fs) = follow dev rounds rest m (w', fs') := by
  induction hl with
  | here n => exact fun _ {w fs} hG ho => ⟨w, fs, 0, hG, ho, fun _ _ _ => rfl⟩
  | into n m name names before after e hd hn hb hcl hle ih =>
    intro hint w fs hG ho
    have hin := hint [] _ n rfl (.here n)
    obtain ⟨w1, fs1, d, i, h1, ho1, hleft⟩ := directory_left h.perfect hc hG ho hd
    have hG1 : G w1 := left_good hleft
    obtain ⟨i', hinv⟩ := h.directory_inv hG ho hd hG1 h1
    have hrec := directory_record hd
    have hw : ∀ x ∈ before ++ [e], (Wanted name ⟨x⟩ ↔ Names name x) := fun x hx =>
      wanted_iff (hrec x (by
        rcases List.mem_append.1 hx with h | h
        · exact List.mem_append_left _ h
        · rw [List.mem_singleton] at h; subst h; simp)) (hcl x hx)
    have hleft : Ext4Directory.Left Is G c i (w1, d) (((before.map DirEntry.mk).map fun x => .ok (some x)) ++
        .ok (some ⟨e⟩) :: after.map fun e => .ok (some ⟨e⟩)) := by
      rw [List.map_map]
      rw [List.map_append, List.map_cons] at hleft
      exact hleft
    obtain ⟨⟨w2, d2⟩, N1, hG2, h2⟩ := lookUp_found h.perfect hc
      ((hw e (by simp)).2 hn) _ (before.map DirEntry.mk) (w1, d) (fun x hx => by
        obtain ⟨y, hy, rfl⟩ := List.mem_map.1 hx
        rw [hw y (List.mem_append_left _ hy)]
        exact hb y hy) hleft
    rw [entry_inode] at h2
    obtain ⟨w', fs', N, hG', ho', h3⟩ := ih (fun f r k hf hk => hint (name :: f) r k (by rw [hf]; rfl)
      (.into n k name f before after e hd hn hb hcl hk)) (w := w2) hG2 ho1
    refine ⟨w', fs', N1 + before.length + 1 + N, hG', ho', fun rounds hr rest => ?_⟩
    have h4 := h2 rounds (by omega) rounds (by rw [List.length_map]; omega)
    rw [← h.lookUp hc hin.clear rounds name rounds hinv] at h4
    rw [← h.openFile (s := (w, fs)) hG ho hin.1] at h1
    rw [List.cons_append, follow_into h1 h4]
    exact h3 rounds (by omega) rest

/-- What the program finds. -/
theorem follow_says (h : Agree bad c dev dev' G Is At) (hc : c.length < U64) {names : List Bytes}
    {out : Found} (hs : Says c names out) (hp : PathIntact bad c names) {w : W} {fs : Ext4Fs D}
    (hG : G w) (ho : Opened Is c fs) :
    ∃ s' N, ∀ rounds, N ≤ rounds → follow dev rounds names 2 (w, fs) = (s', .ok out) := by
  cases hs with
  | content m b hl hf =>
    obtain ⟨w1, fs1, N1, hG1, ho1, h1⟩ := h.follow_leads hc hl (fun f r k => hp.2 f r k) hG ho
    obtain ⟨s', N2, h2⟩ := MdRecover.follow_file h.perfect hc hG1 ho1 hf
    refine ⟨s', N1 + N2, fun rounds hr => ?_⟩
    have := h1 rounds (by omega) []
    rw [List.append_nil] at this
    rw [this, h.follow_file hc hG1 ho1 hf (hp.2 names [] m (List.append_nil _).symm hl),
      h2 rounds (by omega)]
  | missing front rest name n records hn hl hd hcl hno =>
    subst hn
    obtain ⟨w1, fs1, N1, hG1, ho1, h1⟩ := h.follow_leads hc hl
      (fun f r k hf => hp.2 f (r ++ name :: rest) k (by rw [hf, List.append_assoc])) hG ho
    have hin := hp.2 front _ n rfl hl
    obtain ⟨w2, fs2, d, i, h2, ho2, hleft⟩ := directory_left h.perfect hc hG1 ho1 hd
    have hG2 : G w2 := left_good hleft
    obtain ⟨i', hinv⟩ := h.directory_inv hG1 ho1 hd hG2 h2
    have hrec := directory_record hd
    obtain ⟨⟨w3, d3⟩, N3, hG3, h3⟩ := lookUp_missing h.perfect hc (name := name) (records.map DirEntry.mk) (w2, d)
      (fun x hx => by
        obtain ⟨y, hy, rfl⟩ := List.mem_map.1 hx
        rw [wanted_iff (hrec y hy) (hcl y hy)]
        exact hno y hy) (by rw [List.map_map]; exact hleft)
    refine ⟨(w3, fs2), N1 + N3 + records.length + 1, fun rounds hr => ?_⟩
    have h4 := h3 rounds (by omega) rounds (by rw [List.length_map]; omega)
    rw [← h.lookUp hc hin.clear rounds name rounds hinv] at h4
    rw [← h.openFile (s := (w1, fs1)) hG1 ho1 hin.1] at h2
    rw [h1 rounds (by omega), follow, SM.bind_ok (h := h2)]
    simp only
    rw [SM.bind_ok (h := onHandle_eq fs2 h4)]
    rfl
  | notADirectory front rest name n hn hl hr4 h4 h8 =>
    subst hn
    obtain ⟨w1, fs1, N1, hG1, ho1, h1⟩ := h.follow_leads hc hl
      (fun f r k hf => hp.2 f (r ++ name :: rest) k (by rw [hf, List.append_assoc])) hG ho
    have hin := hp.2 front _ n rfl hl
    obtain ⟨w2, fs2, r, h2, -, -, k8, -, -, -, k0⟩ := C75_outcome h.perfect c hc w1 fs1 hG1 ho1 n hr4
    rw [← h.openFile (s := (w1, fs1)) hG1 ho1 hin.1] at h2
    refine ⟨(w2, fs2), N1, fun rounds hr => ?_⟩
    rw [h1 rounds hr, follow]
    by_cases t8 : typeNumber c n = 8
    · obtain ⟨f, rfl⟩ := k8 t8 (h8 t8)
      rw [SM.bind_ok (h := h2)]
      rfl
    · have := k0 t8 h4
      subst this
      rw [SM.bind_ok (h := h2)]
      rfl
  | notAFile m hl hr8 h8 h4 =>
    obtain ⟨w1, fs1, N1, hG1, ho1, h1⟩ := h.follow_leads hc hl (fun f r k => hp.2 f r k) hG ho
    have hin := hp.2 names [] m (List.append_nil _).symm hl
    obtain ⟨w2, fs2, r, h2, -, -, -, -, k4, -, k0⟩ := C75_outcome h.perfect c hc w1 fs1 hG1 ho1 m hr8
    rw [← h.openFile (s := (w1, fs1)) hG1 ho1 hin.1] at h2
    refine ⟨(w2, fs2), N1, fun rounds hr => ?_⟩
    have := h1 rounds (by omega) []
    rw [List.append_nil] at this
    rw [this, follow]
    by_cases t4 : typeNumber c m = 4
    · obtain ⟨f, rfl⟩ := k4 t4 (h4 t4).2 (h4 t4).1
      rw [SM.bind_ok (h := h2)]
      rfl
    · have := k0 h8 t4
      subst this
      rw [SM.bind_ok (h := h2)]
      rfl

/-- Opening and following. -/
theorem readPath (h : Agree bad c dev dev' G Is At) {w : W} {d : D} (hG : G w) (hI : Is d c)
    (hop : Ext4Openable c) (hl : c.length < 2 ^ 57) {names : List Bytes} {out : Found}
    (hs : Says c names out) (hp : PathIntact bad c names) :
    (∃ N, ∀ rounds, N ≤ rounds → (MdSpec.readPath dev rounds d names w).2 = .ok out) ∧
    ∀ rounds, (MdSpec.readPath dev rounds d names w).2 = .ok out ∨
      (MdSpec.readPath dev rounds d names w).2 = .ok .running := by
  obtain ⟨w', fs, h1, hG', ho⟩ := open_opened h.perfect hG hI hop hl
  have hb : TableChecked c := .inr (by have := hop.fits; omega)
  rw [← h.openFs hG hI hb hp.1] at h1
  obtain ⟨s', N, h2⟩ := h.follow_says (by omega) hs hp hG' ho
  have h3 : ∀ rounds, N ≤ rounds → (MdSpec.readPath dev rounds d names w).2 = .ok out := fun rounds hr => by
    rw [readPath_eq h1, h2 rounds hr]
  refine ⟨⟨N, h3⟩, fun rounds => ?_⟩
  by_cases hrun : (MdSpec.readPath dev rounds d names w).2 = .ok .running
  · exact .inr hrun
  · have hne : (MdSpec.readPath dev N d names w).2 ≠ .ok .running := by
      rw [h3 N (Nat.le_refl _)]
      rintro h
      cases h
      cases hs
    rw [readPath_agree hrun hne]
    exact .inl (h3 N (Nat.le_refl _))

end Agree
end MdRecover
