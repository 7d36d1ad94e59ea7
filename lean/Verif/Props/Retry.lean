import Verif.Lemmas.Ext4Retry
import Verif.Props.Ext4FileCases

/-! C102: reading a file on a device that fails now and then. -/

namespace MdRecover
variable [Build]
open MdSpec

section
variable {W D : Type} {F : Prop} {dev : StreamDev W D} {G : W → Prop} {Is : D → Bytes → Prop}
  {At : W → D → Nat → Prop}

omit [Build] in
theorem blocks_take {c : Bytes} {bs : Nat} {xs : List Nat} (hin : ∀ x ∈ xs, BlockInside c bs x) {k x : Nat}
    (hk : xs[k]? = some x) :
    (xs.flatMap (blockOf c bs)).take ((k + 1) * bs) = (xs.flatMap (blockOf c bs)).take (k * bs) ++ blockOf c bs x := by
  have hlen : ∀ y ∈ xs, (blockOf c bs y).length = bs := fun y hy => by
    have := hin y hy
    unfold BlockInside at this
    unfold blockOf
    rw [List.length_take, List.length_drop]
    omega
  induction xs generalizing k with
  | nil => cases hk
  | cons y ys ih =>
    have hy := hlen y List.mem_cons_self
    have hys : ∀ z ∈ ys, (blockOf c bs z).length = bs := fun z hz => hlen z (List.mem_cons_of_mem _ hz)
    rw [List.flatMap_cons]
    cases k with
    | zero =>
      cases hk
      rw [Nat.zero_add, Nat.one_mul, Nat.zero_mul, List.take_zero, List.nil_append,
        List.take_append_of_le_length (by omega), List.take_of_length_le (by omega)]
    | succ k =>
      have h1 := ih (fun z hz => hin z (List.mem_cons_of_mem _ hz)) hk hys
      have e : ∀ m, (blockOf c bs y ++ ys.flatMap (blockOf c bs)).take ((m + 1) * bs) =
          blockOf c bs y ++ (ys.flatMap (blockOf c bs)).take (m * bs) := by
        intro m
        rw [Nat.add_mul, Nat.one_mul, Nat.add_comm, List.take_append, hy, List.take_of_length_le (by omega)]
        congr 2
        omega
      rw [e, e, h1, List.append_assoc]

/-- C102 in part: on a device that may fail at any time, whatever calls were made and however many of them
failed, the data returned by all calls together is the beginning of the file, with nothing left out, repeated
or misplaced; and if a call returned 0, it is the whole file.  Missing: that a call that failed can be
repeated (`C102_final`, `C102_not_repeated`). -/
theorem C102_prefix_partial (hv : VolumeSpec F dev G Is At) (c : Bytes) (hc : c.length < U64) (w : W) (hG : G w)
    (fs : Ext4Fs D) (ho : Opened Is c fs) (inode : Inode) (f : Ext4File D) (hf : Ext4File.open fs inode = .ok f)
    (xs : List Nat) (hx : Contiguous c (blockSizeOf (sbOf c)) inode.blocksBuffer 0 0 xs)
    (hin : ∀ x ∈ xs, BlockInside c (blockSizeOf (sbOf c)) x)
    (hsize : inode.fileSizeBytes ≤ xs.length * blockSizeOf (sbOf c)) (h32 : xs.length < U32)
    (h : List (Bytes × Res (Nat × Bytes))) (s : W × Ext4File D) (hcalls : Calls dev (w, f) h s) :
    dataOf h = ((xs.flatMap (blockOf c (blockSizeOf (sbOf c)))).take inode.fileSizeBytes).take
        (dataCalls h * blockSizeOf (sbOf c)) ∧
      ((∃ buf out, (buf, Res.ok (0, out)) ∈ h) →
        dataOf h = (xs.flatMap (blockOf c (blockSizeOf (sbOf c)))).take inode.fileSizeBytes) := by
  have hpos : 0 < blockSizeOf (sbOf c) := Nat.mul_pos (by omega) (Nat.two_pow_pos _)
  have hw : BlocksCounted c inode.fileSizeBytes :=
    .inr (Nat.le_trans hsize (Nat.mul_le_mul_right _ (by omega)))
  obtain ⟨hi0, hp0, -, -⟩ := Ext4File.open_inv (w := w) hG ho hf (fun _ => True) trivial
  have hP := Ext4File.closed_true c (blockSizeOf (sbOf c))
  generalize hs0 : (w, f) = s0 at hcalls
  suffices hmain : dataOf h = ((xs.flatMap (blockOf c (blockSizeOf (sbOf c)))).take inode.fileSizeBytes).take
        (dataCalls h * blockSizeOf (sbOf c)) ∧
      ((∃ buf out, (buf, Res.ok (0, out)) ∈ h) → inode.fileSizeBytes ≤ dataCalls h * blockSizeOf (sbOf c)) by
    refine ⟨hmain.1, fun h0 => ?_⟩
    rw [hmain.1, List.take_take, Nat.min_eq_right (hmain.2 h0)]
  induction hcalls with
  | nil =>
    refine ⟨?_, fun ⟨_, _, h0⟩ => by cases h0⟩
    show [] = List.take (0 * _) _
    rw [Nat.zero_mul, List.take_zero]
  | snoc s s' h buf r hcalls hret hr ih =>
    subst hs0
    obtain ⟨ih1, ih2⟩ := ih
    obtain ⟨hi1, hp1⟩ := Ext4File.calls_inv hv hc hP hcalls hi0 hw
    have hp1 : s.2.blockPos = dataCalls h := by
      rw [hp1]
      show f.blockPos + _ = _
      omega
    have hD : dataOf (h ++ [(buf, r)]) = dataOf h ++ dataOf [(buf, r)] := List.flatMap_append
    have hC : dataCalls (h ++ [(buf, r)]) = dataCalls h + dataCalls [(buf, r)] := List.countP_append
    have hmem : (∃ b o, (b, Res.ok (0, o)) ∈ h ++ [(buf, r)]) →
        (∃ b o, (b, Res.ok (0, o)) ∈ h) ∨ ∃ o, r = .ok (0, o) := by
      rintro ⟨b, o, h0⟩
      rcases List.mem_append.1 h0 with h0 | h0
      · exact .inl ⟨b, o, h0⟩
      · obtain ⟨-, h0⟩ := Prod.mk.inj (List.mem_singleton.1 h0)
        exact .inr ⟨o, h0.symm⟩
    by_cases hn : gotData r = true
    · obtain ⟨n, out, rfl⟩ : ∃ n out, r = .ok (n, out) := by
        match r, hn with
        | .ok (n, out), _ => exact ⟨n, out, rfl⟩
      have hn : n ≠ 0 := by simpa [gotData] using hn
      obtain ⟨x, h1, h2, h3, h4⟩ := C64_right_block hv c hc w hG fs ho inode f hf hw h s s' hcalls buf out n hret hn
      obtain ⟨-, h5⟩ := contiguous_map hx h1
      rw [Nat.sub_zero] at h5
      have hb : blockSizeOf (sbOf c) ≤ buf.length := by
        refine Nat.le_of_not_lt fun hb => ?_
        have := (Ext4File.returns_short (w := s.1) (f := s.2) hi1.opened hb).1 hret
        cases this.2
      have hC1 : dataCalls [(buf, Res.ok (n, out))] = 1 := by
        unfold dataCalls gotData
        simp [hn]
      have hD1 : dataOf [(buf, Res.ok (n, out))] = out.take n := by
        unfold dataOf
        simp
      rw [hD, hC, hC1, hD1]
      constructor
      · rw [List.take_take, Nat.min_comm, ← List.take_take, blocks_take hin h5, ih1]
        have hl : ((xs.flatMap (blockOf c (blockSizeOf (sbOf c)))).take
            (dataCalls h * blockSizeOf (sbOf c))).length = dataCalls h * blockSizeOf (sbOf c) := by
          have h6 := congrArg List.length (blocks_take hin h5)
          rw [List.length_append, List.length_take, List.length_take] at h6
          have h7 : (blockOf c (blockSizeOf (sbOf c)) x).length = blockSizeOf (sbOf c) := by
            unfold blockOf
            rw [List.length_take, List.length_drop]
            omega
          rw [List.length_take]
          omega
        rw [List.take_append, hl, List.take_take, List.take_take, Nat.min_comm]
        congr 1
        rw [h3, h4]
        unfold blockOf
        rw [List.take_take, List.take_take]
        congr 1
        omega
      · intro h0
        rcases hmem h0 with h0 | ⟨o, h0⟩
        · have := ih2 h0
          rw [Nat.add_mul]
          omega
        · cases h0
          exact absurd rfl hn
    · have hC1 : dataCalls [(buf, r)] = 0 := by
        unfold dataCalls
        simp [hn]
      have hD1 : dataOf [(buf, r)] = [] := by
        unfold dataOf
        match r, hn with
        | .ok (n, out), hn =>
          have : n = 0 := by simpa [gotData] using hn
          simp [this]
        | .err e, _ => rfl
        | .panic, _ => rfl
      rw [hD, hC, hC1, hD1, List.append_nil, Nat.add_zero]
      refine ⟨ih1, fun h0 => ?_⟩
      rcases hmem h0 with h0 | ⟨o, rfl⟩
      · exact ih2 h0
      · obtain ⟨-, h1⟩ := Ext4File.returns_inv hv hc hP hi1 hret hr hw
        rw [hp1] at h1
        rcases h1 with ⟨-, ⟨e, h1⟩ | ⟨-, h1⟩⟩ |
            ⟨-, h1, node, k, j, -, -, -, -, -, -, -, h3⟩
        · cases h1
        · exact h1
        · have h3 := congrArg Prod.fst (Res.ok.inj h3)
          simp only at h3
          omega

/-- How C102 is false: once a call with a buffer that is long enough has failed, all later calls on the same
open file fail, whether the device can be read again or not.  (All nodes of the tree have entries, and all
extents have blocks, as the kernel writes them.) -/
theorem C102_final (hv : VolumeSpec F dev G Is At) (c : Bytes) (hc : c.length < U64) (w : W) (hG : G w)
    (fs : Ext4Fs D) (ho : Opened Is c fs) (inode : Inode) (f : Ext4File D) (hf : Ext4File.open fs inode = .ok f)
    (xs : List Nat) (hx : Contiguous c (blockSizeOf (sbOf c)) inode.blocksBuffer 0 0 xs)
    (hfull : EntriesFull c (blockSizeOf (sbOf c)) inode.blocksBuffer)
    (hsize : inode.fileSizeBytes ≤ xs.length * blockSizeOf (sbOf c))
    (hlast : xs.length * blockSizeOf (sbOf c) < inode.fileSizeBytes + blockSizeOf (sbOf c))
    (h32 : xs.length < U32) (h : List (Bytes × Res (Nat × Bytes))) (s : W × Ext4File D)
    (hcalls : Calls dev (w, f) h s) (k : Nat) (buf : Bytes) (e : ErrKind) (hk : h[k]? = some (buf, .err e))
    (hb : blockSizeOf (sbOf c) ≤ buf.length) (k' : Nat) (hkk : k < k') (buf' : Bytes) (r : Res (Nat × Bytes))
    (hk' : h[k']? = some (buf', r)) : ∃ e', r = .err e' := by
  have hpos : 0 < blockSizeOf (sbOf c) := Nat.mul_pos (by omega) (Nat.two_pow_pos _)
  obtain ⟨hi0, hp0, -, hs0⟩ := Ext4File.open_inv (w := w) hG ho hf
    (TreeNode c (blockSizeOf (sbOf c)) inode.blocksBuffer) .root
  have hal : Ext4File.Alive Is G c inode.blocksBuffer inode xs.length (w, f) := by
    refine ⟨hi0, xs, ?_, ?_⟩
    · show Ext4File.Pending _ _ f.stack f.blockPos _
      rw [hs0, hp0, ← List.append_nil xs]
      exact .tree _ _ _ _ _ _ hx (.nil _)
    · show f.blockPos + _ = _
      omega
  have hlast' : ∀ p, p < xs.length → p * blockSizeOf (sbOf c) < inode.fileSizeBytes := by
    intro p hp
    have : (p + 1) * blockSizeOf (sbOf c) ≤ xs.length * blockSizeOf (sbOf c) := Nat.mul_le_mul_right _ (by omega)
    rw [Nat.add_mul] at this
    omega
  rcases Ext4File.alive_calls hv hc hfull hsize hlast' h32 hcalls hal with ⟨-, hall⟩ |
      ⟨-, h1, x, h2, rfl, -, -, hbefore, hafter⟩
  · rcases hall _ (List.mem_of_getElem? hk) with h3 | ⟨a, h3⟩
    · exact absurd hb (Nat.not_le.2 h3)
    · cases h3
  · have hge : h1.length ≤ k := by
      refine Nat.le_of_not_lt fun hlt => ?_
      rw [List.getElem?_append_left hlt] at hk
      rcases hbefore _ (List.mem_of_getElem? hk) with h3 | ⟨a, h3⟩
      · exact absurd hb (Nat.not_le.2 h3)
      · cases h3
    rw [List.getElem?_append_right (by omega)] at hk'
    obtain ⟨m, hm⟩ : ∃ m, k' - h1.length = m + 1 := ⟨k' - h1.length - 1, by omega⟩
    rw [hm, List.getElem?_cons_succ] at hk'
    exact hafter _ (List.mem_of_getElem? hk')

/-- What helps: if the device can be read again (`G'`), a file opened anew reads exactly, whatever happened to
other open files in between. -/
theorem C102_fresh (hv : VolumeSpec F dev G Is At) {G' : W → Prop} (hv' : VolumeSpec False dev G' Is At)
    (c : Bytes) (hc : c.length < U64) (w : W) (_hG : G w) (fs : Ext4Fs D) (ho : Opened Is c fs) (inode : Inode)
    (f : Ext4File D) (hf : Ext4File.open fs inode = .ok f) (xs : List Nat)
    (hx : Contiguous c (blockSizeOf (sbOf c)) inode.blocksBuffer 0 0 xs)
    (hin : ∀ x ∈ xs, BlockInside c (blockSizeOf (sbOf c)) x)
    (hsize : inode.fileSizeBytes ≤ xs.length * blockSizeOf (sbOf c))
    (hlast : xs ≠ [] → xs.length * blockSizeOf (sbOf c) < inode.fileSizeBytes + blockSizeOf (sbOf c))
    (h32 : xs.length < U32) (h : List (Bytes × Res (Nat × Bytes))) (s : W × Ext4File D)
    (_hcalls : Calls dev (w, f) h s) (hagain : G' s.1) :
    ∃ f' h' s', Ext4File.open fs inode = .ok f' ∧ Calls dev (s.1, f') h' s' ∧
      h'.map Prod.fst = List.replicate (xs.length + 1) (zeros (blockSizeOf (sbOf c))) ∧
      dataOf h' = (xs.flatMap (blockOf c (blockSizeOf (sbOf c)))).take inode.fileSizeBytes ∧
      (∀ x ∈ h', ∃ a, x.2 = .ok a) := by
  have _ := hv
  have hz : (zeros (blockSizeOf (sbOf c))).length = blockSizeOf (sbOf c) := List.length_replicate
  obtain ⟨h', s', h1, h2, h3, h4, h5⟩ := C63_content_partial hv' c hc s.1 hagain fs ho inode f hf xs hx hsize hlast h32
    (List.replicate (xs.length + 1) (zeros (blockSizeOf (sbOf c)))) (by rw [List.length_replicate]; omega)
    (fun buf hb => by
      rw [List.eq_of_mem_replicate hb, hz]
      exact ⟨Nat.le_refl _, hin⟩)
  refine ⟨f, h', s', hf, h1, h2, h3, fun x hxm => ?_⟩
  obtain ⟨k, hk⟩ := List.mem_iff_getElem?.1 hxm
  have hkl : k < h'.length := (List.getElem?_eq_some_iff.1 hk).1
  have hbk : (List.replicate (xs.length + 1) (zeros (blockSizeOf (sbOf c))))[k]? =
      some (zeros (blockSizeOf (sbOf c))) := by
    rw [← List.length_map (f := Prod.fst), h2, List.length_replicate] at hkl
    rw [List.getElem?_replicate, if_pos hkl]
  by_cases hlt : k < xs.length
  · have := h4 k xs[k] _ (List.getElem?_eq_getElem hlt) hbk
    rw [hk] at this
    cases this
    exact ⟨_, rfl⟩
  · have := h5 k _ (Nat.le_of_not_lt hlt) hbk
    rw [hk] at this
    cases this
    exact ⟨_, rfl⟩

end

/-! ## A case -/

open Fixture

omit [Build] in
set_option maxRecDepth 100000 in
theorem small_content : ([8, 9, 10].flatMap (blockOf smallFs 1024)).take 2500 = (smallFs.drop 8192).take 2500 := by
  decide +kernel

theorem full3 : EntriesFull smallFs 1024 (root smallFs 3) := by
  obtain ⟨⟨a1, a2, a3, a4, a5, -⟩, ⟨b1, b2, b3, b4, b5, b6, b7, b8, b9⟩, -⟩ := tree_values
  have hl1 := extentLen_of b5 (by omega)
  have hl2 := extentLen_of b8 (by omega)
  have hn : ∀ node, TreeNode smallFs 1024 (root smallFs 3) node →
      node = root smallFs 3 ∨ node = blockOf smallFs 1024 6 := by
    intro node h
    induction h with
    | root => exact .inl rfl
    | child node i _ h1 h2 _ _ ih =>
      rcases ih with rfl | rfl
      · have : i = 0 := by omega
        rw [this, a5]
        exact .inr rfl
      · exact absurd b1 h1
  intro node h
  rcases hn node h with rfl | rfl
  · exact ⟨by omega, fun h0 => by omega⟩
  · refine ⟨by omega, fun _ i hi => ?_⟩
    have : i = 0 ∨ i = 1 := by omega
    rcases this with rfl | rfl <;> omega

/-- Reading a block when the next `read` of the kernel fails. -/
theorem readBlock_fails (fs : Ext4Fs FileDev) (ho : Opened (fun d c => d.content = c) smallFs fs) (x : Nat)
    (hx : x < 13) (off : Nat → Nat) (bey : Nat → Nat) :
    ∃ off', Ext4Fs.readBlock FileDev.streamDev x (zeros 1024) (⟨off, [.fail 5], bey⟩, fs) =
      ((⟨off', [], bey⟩, fs), .err (.os 5)) := by
  have hbs : fs.blockSize = .ok 1024 := by rw [← smallFs_like.blockSize]; exact ho.blockSize
  have hz : (zeros 1024).length = 1024 := List.length_replicate
  have hlen : fs.device.content.length = 13312 := by rw [ho.device]; exact smallFs_length
  refine ⟨fun i => if i = fs.device.ofd then x * 1024 else off i, ?_⟩
  unfold Ext4Fs.readBlock
  rw [SM.bind_ok (h := SM.get_apply _)]
  simp only
  rw [SM.bind_ok (a := 1024) (h := by rw [SM.lift_apply, hbs]), if_neg (by omega),
    SM.bind_ok (a := x * 1024) (s' := (⟨off, [.fail 5], bey⟩, fs)) (h := by
      unfold checkedMul64
      rw [if_pos (by omega)]
      rfl),
    SM.bind_ok (a := x * 1024)
      (s' := (⟨fun i => if i = fs.device.ofd then x * 1024 else off i, [.fail 5], bey⟩, fs)) (h := by
      unfold Ext4Fs.onDevice SM.zoom
      simp only [FileDev.streamDev, FileDev.seekRaw]
      rw [if_neg (by omega)]
      have h0 : ((x * 1024 : Nat) : Int).toNat = x * 1024 := Int.toNat_natCast _
      rw [h0])]
  unfold Ext4Fs.onDevice SM.zoom readExact
  rw [hz]
  rfl

/-- C102 is false as stated: the first read of the file fails, as the device could not be read at that moment.
The same call made again fails, although the device is readable again.  A file opened anew is read. -/
theorem C102_not_repeated : ∃ (K : Kernel) (fs : Ext4Fs FileDev) (f : Ext4File FileDev)
    (s1 s2 : Kernel × Ext4File FileDev) (h : List (Bytes × Res (Nat × Bytes))) (s3 : Kernel × Ext4File FileDev),
    Ext4Fs.open FileDev.streamDev ⟨7, smallFs, 512⟩ ⟨fun _ => 0, [], fun _ => 0⟩ = (K, .ok fs) ∧
    Ext4File.open fs (inodeOf smallFs 3) = .ok f ∧
    Returns FileDev.streamDev ({ K with schedule := [.fail 5] }, f) (zeros 1024) s1 (.err (.os 5)) ∧
    s1.1.schedule = [] ∧
    Returns FileDev.streamDev s1 (zeros 1024) s2 (.err .unexpectedEof) ∧
    Calls FileDev.streamDev (s1.1, f) h s3 ∧ dataOf h = (smallFs.drop 8192).take 2500 := by
  have hlen := smallFs_length
  have hbs := smallFs_like.blockSize
  have hz : (zeros 1024).length = 1024 := List.length_replicate
  obtain ⟨⟨a1, a2, a3, a4, a5, hsz⟩, -⟩ := tree_values
  have hnf : FileDev.NoFailures ⟨fun _ => 0, [], fun _ => 0⟩ := fun _ h => (by cases h)
  obtain ⟨K, fs, hopen, hK, -⟩ := C57_opens FileDev.volumeSpec_reliable smallFs ⟨fun _ => 0, [], fun _ => 0⟩
    ⟨7, smallFs, 512⟩ hnf rfl smallFs_like.openable (by omega)
  obtain ⟨K', r, h1, -, h2⟩ := Ext4Fs.open_spec FileDev.volumeSpec_reliable hnf
    (d := (⟨7, smallFs, 512⟩ : FileDev)) (c := smallFs) rfl (.inr (by have := smallFs_like.openable.fits; omega))
  rw [hopen] at h1
  cases h1
  have ho : Opened (fun d c => d.content = c) smallFs fs := by
    rcases h2 with ⟨fs, h2, ho, -⟩ | ⟨-, e, h2⟩ | ⟨-, h2⟩ <;> cases h2
    exact ho
  have hf : Ext4File.open fs (inodeOf smallFs 3) =
      .ok ⟨fs, inodeOf smallFs 3, [.tree (.fromInternal (.fromInode (inodeOf smallFs 3))) 0], 0, 0⟩ := by
    unfold Ext4File.open ExtentTree.fromInode
    rw [if_pos (has_extents 3 (by omega) (by omega))]
    rfl
  obtain ⟨off', hread⟩ := readBlock_fails fs ho 6 (by omega) K.offset K.beyond
  have hst : (ExtentNode.fromInode (inodeOf smallFs 3)).storage = root smallFs 3 := rfl
  have hret : Returns FileDev.streamDev (⟨K.offset, [.fail 5], K.beyond⟩,
      ⟨fs, inodeOf smallFs 3, [.tree (.fromInternal (.fromInode (inodeOf smallFs 3))) 0], 0, 0⟩) (zeros 1024)
      (⟨off', [], K.beyond⟩, ⟨fs, inodeOf smallFs 3, [], 0, 0⟩) (.err (.os 5)) := by
    refine (Ext4File.returns_iff ho (by rw [hbs, hz])).2 ⟨_, .refl _, ?_⟩
    rw [Ext4File.step_tree _ _ _ _ rfl]
    unfold Ext4File.stepTree
    rw [if_pos (by
      unfold ExtentTree.entryCount
      rw [ExtentTree.node_fromInternal, ExtentNode.entryCount_eq, hst]; omega),
      ExtentTree.fromInternal_branch (by rw [hst]; omega)]
    simp only
    unfold Ext4File.stepBranch
    rw [Ext4File.get_bind, ExtentNode.entryAt_fits (by rw [hst]; omega) (by rw [hst]; unfold NodeFits; omega),
      Ext4File.lift_bind]
    simp only [ExtentIndex.block_eq, ExtentIndex.leaf_eq, hst]
    rw [if_neg (by omega), Ext4File.blockSize_eq ho, Ext4File.lift_bind, hbs, a5,
      SM.bind_err (h := Ext4File.onFs_eq hread)]
    rfl
  have hret2 : Returns FileDev.streamDev (⟨off', [], K.beyond⟩, ⟨fs, inodeOf smallFs 3, [], 0, 0⟩) (zeros 1024)
      (⟨off', [], K.beyond⟩, ⟨fs, inodeOf smallFs 3, [], 0, 0⟩) (.err .unexpectedEof) := by
    refine (Ext4File.returns_iff ho (by rw [hbs, hz])).2 ⟨_, .refl _, ?_⟩
    rw [Ext4File.step_empty _ _ _ _ rfl, if_neg]
    · rfl
    · show 0 ≠ (inodeOf smallFs 3).fileSizeBytes
      omega
  obtain ⟨f', h', s', hf', hcalls, -, hdata, -⟩ := C102_fresh FileDev.volumeSpec_honest FileDev.volumeSpec_reliable
    smallFs (by omega) ⟨K.offset, [.fail 5], K.beyond⟩ trivial fs ho _ _ hf [8, 9, 10]
    (by rw [hbs]; exact contiguous3.1) (by rw [hbs]; unfold BlockInside; rw [hlen]; decide)
    (by rw [hbs, hsz]; decide) (fun _ => by rw [hbs, hsz]; decide) (by decide) _ _
    (.snoc _ _ _ [] _ _ (.nil _) hret (fun h => by cases h)) (fun _ h => by cases h)
  rw [hf] at hf'
  cases hf'
  refine ⟨K, fs, _, _, _, h', s', hopen, hf, hret, rfl, hret2, hcalls, ?_⟩
  rw [hdata, hbs, hsz]
  exact small_content

/-- Case for `C102_prefix_partial` and `C102_final`: the file of inode 3, 2500 bytes in blocks 8, 9, 10, read
through a file-backed device with any short reads and failures. -/
theorem C102_case (fs : Ext4Fs FileDev) (ho : Opened (fun d c => d.content = c) smallFs fs) (f : Ext4File FileDev)
    (hf : Ext4File.open fs (inodeOf smallFs 3) = .ok f) (K : Kernel) (h : List (Bytes × Res (Nat × Bytes)))
    (s : Kernel × Ext4File FileDev) (hcalls : Calls FileDev.streamDev (K, f) h s) :
    dataOf h = ((smallFs.drop 8192).take 2500).take (dataCalls h * 1024) ∧
    ((∃ buf out, (buf, Res.ok (0, out)) ∈ h) → dataOf h = (smallFs.drop 8192).take 2500) ∧
    ∀ (k : Nat) (buf : Bytes) (e : ErrKind), h[k]? = some (buf, Res.err e) → 1024 ≤ buf.length → ∀ (k' : Nat), k < k' →
      ∀ (buf' : Bytes) (r : Res (Nat × Bytes)), h[k']? = some (buf', r) →
      ∃ e', r = .err e' := by
  have hlen := smallFs_length
  have hbs := smallFs_like.blockSize
  have hsz := tree_values.1.2.2.2.2.2
  obtain ⟨h1, h2⟩ := C102_prefix_partial FileDev.volumeSpec_honest smallFs (by omega) K trivial fs ho _ f hf [8, 9, 10]
    (by rw [hbs]; exact contiguous3.1) (by rw [hbs]; unfold BlockInside; rw [hlen]; decide)
    (by rw [hbs, hsz]; decide) (by decide) h s hcalls
  rw [hbs, hsz, small_content] at h1 h2
  refine ⟨h1, h2, fun k buf e hk hb k' hkk buf' r hk' => ?_⟩
  exact C102_final FileDev.volumeSpec_honest smallFs (by omega) K trivial fs ho _ f hf [8, 9, 10]
    (by rw [hbs]; exact contiguous3.1) (by rw [hbs]; exact full3)
    (by rw [hbs, hsz]; decide) (by rw [hbs, hsz]; decide) (by decide) h s hcalls k buf e hk (by rw [hbs]; exact hb) k' hkk
    buf' r hk'

end MdRecover
