import Verif.Props.Ext4Directory
import Verif.Props.Ext4Inode
import Verif.Props.Ext4FileCases
import Verif.Spec.Ext4Open

namespace MdRecover
open MdSpec
variable [Build]

section
variable {W D : Type} {F : Prop} {dev : StreamDev W D} {G : W → Prop} {Is : D → Bytes → Prop}
  {At : W → D → Nat → Prop}

omit [Build] in
/-- Cloning a filesystem. -/
theorem Ext4Fs.tryClone_spec (hv : VolumeSpec F dev G Is At) {c : Bytes} {w : W} {fs : Ext4Fs D}
    (hG : G w) (ho : Opened Is c fs) :
    ∃ w' r, Ext4Fs.tryClone dev fs w = (w', r) ∧ G w' ∧
      ((∃ fs', r = .ok fs' ∧ Opened Is c fs' ∧ fs'.superblock = fs.superblock) ∨
        (F ∧ ∃ e, r = .err e)) := by
  rcases h : dev.tryClone fs.device w with ⟨w', x⟩
  obtain ⟨hG', h1⟩ := hv.tryClone hG ho.device h
  unfold Ext4Fs.tryClone
  rcases h1 with ⟨d', rfl, hd'⟩ | ⟨hF, e, rfl⟩
  · rw [SM.bind_ok (h := h)]
    exact ⟨w', _, rfl, hG', .inl ⟨_, rfl,
      ⟨hd', ho.long, ho.readable, ho.fits, ho.superblock, ho.groups⟩, rfl⟩⟩
  · rw [SM.bind_err (h := h)]
    exact ⟨w', _, rfl, hG', .inr ⟨hF, e, rfl⟩⟩

/-- `open_file` is a clone, `read_inode` and `Ext4File::open`. -/
theorem Ext4Fs.openFile_spec (hv : VolumeSpec F dev G Is At) {c : Bytes} {w : W} {fs : Ext4Fs D}
    (hG : G w) (ho : Opened Is c fs) (n : Nat) :
    ∃ w' fs' r, Ext4Fs.openFile dev n (w, fs) = ((w', fs'), r) ∧ G w' ∧ Opened Is c fs' ∧
      ((F ∧ ∃ e, r = .err e) ∨
        ∃ w1 fs2 q, G w1 ∧ Opened Is c fs2 ∧ fs2.superblock = fs.superblock ∧
          Ext4Fs.readInode dev n (w1, fs) = ((w', fs'), q) ∧
          r = q >>= fun i => OpenedFile.open fs2 i) := by
  obtain ⟨w1, r1, h1, hG1, h2⟩ := Ext4Fs.tryClone_spec hv hG ho
  have hz : SM.zoom (fun s : W × Ext4Fs D => s.1) (fun s w => (w, s.2)) (Ext4Fs.tryClone dev fs)
      (w, fs) = ((w1, fs), r1) := by
    simp only [SM.zoom, h1]
  have hget : (SM.get : SM (W × Ext4Fs D) _) (w, fs) = ((w, fs), .ok (w, fs)) := rfl
  unfold Ext4Fs.openFile
  rw [SM.bind_ok (h := hget)]
  simp only
  rcases h2 with ⟨fs2, rfl, ho2, hs2⟩ | ⟨hF, e, rfl⟩
  · rw [SM.bind_ok (h := hz)]
    obtain ⟨w', fs', q, h3, hG', ho', -⟩ := Ext4Fs.readInode_spec hv hG1 ho n
    refine ⟨w', fs', q >>= fun i => OpenedFile.open fs2 i, ?_, hG', ho', .inr
      ⟨w1, fs2, q, hG1, ho2, hs2, h3, rfl⟩⟩
    rcases q with i | e | _
    · rw [SM.bind_ok (h := h3)]; rfl
    · rw [SM.bind_err (h := h3)]; rfl
    · rw [SM.bind_panic (h := h3)]; rfl
  · rw [SM.bind_err (h := hz)]
    exact ⟨w1, fs, _, rfl, hG1, ho, .inl ⟨hF, e, rfl⟩⟩

omit [Build] in
/-- `Ext4File::open` on an inode that was read. -/
theorem OpenedFile.open_spec {c : Bytes} {n : Nat} {fs : Ext4Fs D} {sb : Ext4Superblock} {i : Inode}
    (hi : Inode.new sb n (inodeBytes c n) = .ok i) :
    (typeNumber c n = 8 → hasExtents c n → ∃ f, Ext4File.open fs i = .ok f ∧
      OpenedFile.open fs i = .ok (.regularFile f)) ∧
    (typeNumber c n = 8 → ¬ hasExtents c n → OpenedFile.open fs i = .err .unsupported) ∧
    (typeNumber c n = 4 → ¬ flagBit c n 12 → hasExtents c n → ∃ d, Ext4Directory.open fs i = .ok d ∧
      OpenedFile.open fs i = .ok (.directory d)) ∧
    (typeNumber c n = 4 → flagBit c n 12 ∨ ¬ hasExtents c n →
      OpenedFile.open fs i = .err .unsupported) ∧
    (typeNumber c n ≠ 8 → typeNumber c n ≠ 4 →
      OpenedFile.open fs i = .ok (.unsupported (.ofNat (typeNumber c n)))) := by
  obtain ⟨hm, -, -, -, -, -, hfl, -⟩ := C60_fields sb n _ i hi
  have hlt : typeNumber c n < 16 := by
    have := le_lt (inodePart (inodeBytes c n)) 0 2
    unfold typeNumber
    omega
  have ht : i.fileType = .ofNat (typeNumber c n) := by
    show i.fileMode.fileType = _
    rw [hm]
    unfold FileMode.fileType
    simp only
    rw [Nat.shiftRight_eq_div_pow]
    exact congrArg _ (Nat.mod_eq_of_lt (Nat.lt_trans hlt (by decide)))
  have hbit : ∀ k, hasBit i.flags k = decide (flagBit c n k) := by
    intro k
    rw [hasBit_iff, hfl]
    rfl
  have he : Ext4File.open fs i = if hasExtents c n then
      .ok ⟨fs, i, [.tree (.fromInternal (.fromInode i)) 0], 0, 0⟩ else .err .unsupported := by
    unfold Ext4File.open ExtentTree.fromInode hasExtents
    rw [hbit, hbit]
    by_cases h1 : flagBit c n 19 <;> by_cases h2 : flagBit c n 28 <;> simp [h1, h2]
  have hdir : Ext4Directory.open fs i = if flagBit c n 12 then .err .unsupported else
      (Ext4File.open fs i >>= fun f => pure ⟨f, .start⟩) := by
    unfold Ext4Directory.open
    rw [hbit]
    by_cases h : flagBit c n 12 <;> simp [h]
  have h8 : typeNumber c n = 8 → OpenedFile.open fs i =
      (Ext4File.open fs i >>= fun f => pure (.regularFile f)) := by
    intro h
    have : i.fileType = .regularFile := by rw [ht, h]; rfl
    unfold OpenedFile.open
    rw [this]
  have h4 : typeNumber c n = 4 → OpenedFile.open fs i =
      (Ext4Directory.open fs i >>= fun f => pure (.directory f)) := by
    intro h
    have : i.fileType = .directory := by rw [ht, h]; rfl
    unfold OpenedFile.open
    rw [this]
  refine ⟨fun h k => ?_, fun h k => ?_, fun h k1 k2 => ?_, fun h k => ?_, fun k1 k2 => ?_⟩
  · rw [h8 h, he, if_pos k]
    exact ⟨_, rfl, rfl⟩
  · rw [h8 h, he, if_neg k]
    rfl
  · rw [h4 h, hdir, if_neg k1, he, if_pos k2]
    exact ⟨_, rfl, rfl⟩
  · rw [h4 h, hdir]
    by_cases k1 : flagBit c n 12
    · rw [if_pos k1]; rfl
    · rw [if_neg k1, he, if_neg (k.resolve_left k1)]; rfl
  · have hr : ∀ t, t < 16 → t ≠ 8 → t ≠ 4 →
        FileType.ofNat t ≠ .regularFile ∧ FileType.ofNat t ≠ .directory := by decide
    obtain ⟨r1, r2⟩ := hr _ hlt k1 k2
    unfold OpenedFile.open
    rw [ht]
    split
    · rename_i h; exact absurd h r1
    · rename_i h; exact absurd h r2
    · rfl

/-- C75: on a device that does not fail, opening an inode that can be read has the outcome that the type
and the flags of the inode say: a regular file (type 8) and a directory (type 4) are opened if their
blocks are mapped by extents and the directory is not hash-indexed (bit 12); otherwise they are
`Unsupported`; every other type is given back as a type. -/
theorem C75_outcome (hv : VolumeSpec False dev G Is At) (c : Bytes) (hc : c.length < U64) (w : W)
    (fs : Ext4Fs D) (hG : G w) (ho : Opened Is c fs) (n : Nat) (hn : InodeReadable c n) :
    ∃ w' fs' r, Ext4Fs.openFile dev n (w, fs) = ((w', fs'), r) ∧ G w' ∧ Opened Is c fs' ∧
      (typeNumber c n = 8 → hasExtents c n → ∃ f, r = .ok (.regularFile f)) ∧
      (typeNumber c n = 8 → ¬ hasExtents c n → r = .err .unsupported) ∧
      (typeNumber c n = 4 → ¬ flagBit c n 12 → hasExtents c n → ∃ d, r = .ok (.directory d)) ∧
      (typeNumber c n = 4 → flagBit c n 12 ∨ ¬ hasExtents c n → r = .err .unsupported) ∧
      (typeNumber c n ≠ 8 → typeNumber c n ≠ 4 →
        r = .ok (.unsupported (.ofNat (typeNumber c n)))) := by
  obtain ⟨w', fs', r, h1, hG', ho', h2⟩ := Ext4Fs.openFile_spec hv hG ho n
  refine ⟨w', fs', r, h1, hG', ho', ?_⟩
  rcases h2 with ⟨hF, -⟩ | ⟨w1, fs2, q, hG1, ho2, hs, h3, rfl⟩
  · exact hF.elim
  obtain ⟨w2, fs3, h4, -⟩ := C59_reads hv c w1 fs hG1 ho n hn.pos hn.le hn.group hn.inside hc
  rw [h4] at h3
  cases h3
  obtain ⟨i, hi, -⟩ := C60_decode_partial fs.superblock n (inodeBytes c n) hn.extra hn.length
  have := OpenedFile.open_spec (fs := fs2) hi
  unfold inodeBytes at hi
  rw [hi]
  obtain ⟨k1, k2, k3, k4, k5⟩ := this
  refine ⟨fun a b => ?_, k2, fun a b d => ?_, k4, k5⟩
  · obtain ⟨f, -, h⟩ := k1 a b
    exact ⟨f, h⟩
  · obtain ⟨f, -, h⟩ := k3 a b d
    exact ⟨f, h⟩

/-- C75: whatever the device does, a file that is opened is what the inode says: it was opened, on a handle
of its own, from the inode read in the slot of its number. -/
theorem C75_success (hv : VolumeSpec F dev G Is At) (c : Bytes) (w w' : W) (fs fs' : Ext4Fs D)
    (hG : G w) (ho : Opened Is c fs) (n : Nat) (x : OpenedFile D)
    (h : Ext4Fs.openFile dev n (w, fs) = ((w', fs'), .ok x)) :
    1 ≤ n ∧ n ≤ le (sbOf c) 0 4 ∧ (n - 1) / le (sbOf c) 0x28 4 < groupsOf (sbOf c) ∧
    G w' ∧ Opened Is c fs' ∧
    ∃ i fs2, Inode.new fs.superblock n (inodeBytes c n) = .ok i ∧ Opened Is c fs2 ∧
      match x with
      | .regularFile f => typeNumber c n = 8 ∧ hasExtents c n ∧ Ext4File.open fs2 i = .ok f ∧
          f.fileSizeBytes = sizeOf c n
      | .directory d => typeNumber c n = 4 ∧ ¬ flagBit c n 12 ∧ hasExtents c n ∧
          Ext4Directory.open fs2 i = .ok d
      | .unsupported t => typeNumber c n ≠ 8 ∧ typeNumber c n ≠ 4 ∧ t = .ofNat (typeNumber c n) := by
  obtain ⟨w1, fs1, r, h1, hG', ho', h2⟩ := Ext4Fs.openFile_spec hv hG ho n
  rw [h] at h1
  cases h1
  rcases h2 with ⟨-, e, h2⟩ | ⟨w1, fs2, q, hG1, ho2, hs, h3, h2⟩
  · cases h2
  rcases q with i | e | _
  · obtain ⟨a1, a2, a3, -, a4, -⟩ := C59_slot hv c w1 w' fs fs' hG1 ho n i h3
    refine ⟨a1, a2, a3, hG', ho', i, fs2, a4, ho2, ?_⟩
    have h2 : Res.ok x = OpenedFile.open fs2 i := h2
    obtain ⟨k1, k2, k3, k4, k5⟩ := OpenedFile.open_spec (fs := fs2) (c := c) a4
    by_cases t8 : typeNumber c n = 8
    · by_cases he : hasExtents c n
      · obtain ⟨f, g1, g2⟩ := k1 t8 he
        rw [g2] at h2
        cases h2
        refine ⟨t8, he, g1, ?_⟩
        have : f.inode = i := by
          unfold Ext4File.open ExtentTree.fromInode at g1
          split at g1
          · cases g1; rfl
          · cases g1
        unfold Ext4File.fileSizeBytes
        rw [this, (C60_fields _ _ _ i a4).2.2.1]
        rfl
      · rw [k2 t8 he] at h2
        cases h2
    by_cases t4 : typeNumber c n = 4
    · by_cases he : ¬ flagBit c n 12 ∧ hasExtents c n
      · obtain ⟨d, g1, g2⟩ := k3 t4 he.1 he.2
        rw [g2] at h2
        cases h2
        exact ⟨t4, he.1, he.2, g1⟩
      · rw [k4 t4 ((Decidable.not_and_iff_not_or_not.mp he).imp_left Decidable.not_not.mp)] at h2
        cases h2
    · rw [k5 t8 t4] at h2
      cases h2
      exact ⟨t8, t4, rfl⟩
  · cases h2
  · cases h2

/-- C75: numbers without an inode are `InvalidInput`. -/
theorem C75_invalid_number (hv : VolumeSpec False dev G Is At) (c : Bytes) (w : W) (fs : Ext4Fs D)
    (hG : G w) (ho : Opened Is c fs) (n : Nat)
    (hn : n = 0 ∨ le (sbOf c) 0 4 < n ∨ groupsOf (sbOf c) ≤ (n - 1) / le (sbOf c) 0x28 4) :
    ∃ w' fs', Ext4Fs.openFile dev n (w, fs) = ((w', fs'), .err .invalidInput) ∧ G w' ∧
      Opened Is c fs' := by
  obtain ⟨w', fs', r, h1, hG', ho', h2⟩ := Ext4Fs.openFile_spec hv hG ho n
  rcases h2 with ⟨hF, -⟩ | ⟨w1, fs2, q, hG1, ho2, hs, h3, rfl⟩
  · exact hF.elim
  obtain ⟨w2, fs3, h4, -⟩ := C59_invalid_number hv c w1 fs hG1 ho n hn
  rw [h4] at h3
  cases h3
  exact ⟨w', fs', h1, hG', ho'⟩

/-- C75, with C63: a regular file is opened by its number and read to the end: the data are the bytes of
the blocks to which the extents in the inode map the file, cut at the size in the inode. -/
theorem C75_read_file (hv : VolumeSpec False dev G Is At) (c : Bytes) (hc : c.length < U64) (w : W)
    (fs : Ext4Fs D) (hG : G w) (ho : Opened Is c fs) (n : Nat) (hn : InodeReadable c n)
    (h8 : typeNumber c n = 8) (he : hasExtents c n) (xs : List Nat)
    (hx : Contiguous c (blockSizeOf (sbOf c)) (rootNode c n) 0 0 xs)
    (hsize : sizeOf c n ≤ xs.length * blockSizeOf (sbOf c))
    (hlast : xs ≠ [] → xs.length * blockSizeOf (sbOf c) < sizeOf c n + blockSizeOf (sbOf c))
    (h32 : xs.length < U32) (bufs : List Bytes) (hl : xs.length ≤ bufs.length)
    (hbufs : ∀ buf ∈ bufs, buf.length = blockSizeOf (sbOf c))
    (hin : ∀ x ∈ xs, x * blockSizeOf (sbOf c) + blockSizeOf (sbOf c) ≤ c.length) :
    ∃ w' fs' f h s', Ext4Fs.openFile dev n (w, fs) = ((w', fs'), .ok (.regularFile f)) ∧
      Calls dev (w', f) h s' ∧ h.map Prod.fst = bufs ∧
      dataOf h = (xs.flatMap (blockOf c (blockSizeOf (sbOf c)))).take (sizeOf c n) := by
  obtain ⟨w', fs', r, h1, hG', ho', h2, -⟩ := C75_outcome hv c hc w fs hG ho n hn
  obtain ⟨f, rfl⟩ := h2 h8 he
  obtain ⟨-, -, -, -, -, i, fs2, hi, ho2, -, -, h3, -⟩ := C75_success hv c w w' fs fs' hG ho n _ h1
  obtain ⟨-, -, k1, -, -, -, -, -, k2, -⟩ := C60_fields _ _ _ i hi
  have k1 : i.fileSizeBytes = sizeOf c n := k1
  have k2 : i.blocksBuffer = rootNode c n := k2
  obtain ⟨h, s', h4, h5, h6, -⟩ := C63_content_partial hv c hc w' hG' fs2 ho2 i f h3 xs
    (by rw [k2]; exact hx) (by rw [k1]; exact hsize) (by rw [k1]; exact hlast) h32 bufs hl
    (fun buf hb => by
      rw [hbufs buf hb]
      exact ⟨Nat.le_refl _, hin⟩)
  exact ⟨w', fs', f, h, s', h1, h4, h5, by rw [h6, k1]⟩

/-- C75, with C72: a directory is opened by its number and listed. -/
theorem C75_list_directory (hv : VolumeSpec False dev G Is At) (c : Bytes) (hc : c.length < U64)
    (w : W) (fs : Ext4Fs D) (hG : G w) (ho : Opened Is c fs) (n : Nat) (hn : InodeReadable c n)
    (h4 : typeNumber c n = 4) (h12 : ¬ flagBit c n 12) (he : hasExtents c n) (xs : List Nat)
    (hx : Contiguous c (blockSizeOf (sbOf c)) (rootNode c n) 0 0 xs)
    (hsize : sizeOf c n = xs.length * blockSizeOf (sbOf c)) (h32 : xs.length < U32)
    (hin : ∀ x ∈ xs, BlockInside c (blockSizeOf (sbOf c)) x) (i : Inode)
    (hi : Inode.new fs.superblock n (inodeBytes c n) = .ok i)
    (rss : List (List (Res (Option DirEntry))))
    (hrss : List.Forall₂ (fun x rs => BlockResults i.metadataChecksumSeed
      (blockOf c (blockSizeOf (sbOf c)) x) rs) xs rss) (m : Nat) :
    ∃ w' fs' d s', Ext4Fs.openFile dev n (w, fs) = ((w', fs'), .ok (.directory d)) ∧
      DirCalls dev (w', d) ((List.range m).map fun k => rss.flatten[k]?.getD (.ok none)) s' := by
  obtain ⟨w', fs', r, h1, hG', ho', -, -, h2, -⟩ := C75_outcome hv c hc w fs hG ho n hn
  obtain ⟨d, rfl⟩ := h2 h4 h12 he
  obtain ⟨-, -, -, -, -, i', fs2, hi', ho2, -, -, -, h3⟩ :=
    C75_success hv c w w' fs fs' hG ho n _ h1
  rw [hi] at hi'
  cases hi'
  obtain ⟨-, -, k1, -, -, -, -, -, k2, -⟩ := C60_fields _ _ _ i hi
  have k1 : i.fileSizeBytes = sizeOf c n := k1
  have k2 : i.blocksBuffer = rootNode c n := k2
  obtain ⟨s', h5⟩ := C72_lists hv c hc w' hG' fs2 ho2 i d h3 xs (by rw [k2]; exact hx)
    (by rw [k1]; exact hsize) h32 hin rss hrss m
  exact ⟨w', fs', d, s', h1, h5⟩

end

omit [Build] in
set_option maxRecDepth 100000 in
/-- Cases for C75 in the hand-made filesystem: inode 3 is a regular file with extents, inode 2 a
directory, inode 8 a regular file without extents, inode 1 has no type. -/
theorem C75_case : InodeReadable Fixture.smallFs 3 ∧ typeNumber Fixture.smallFs 3 = 8 ∧
    hasExtents Fixture.smallFs 3 ∧ sizeOf Fixture.smallFs 3 = 2500 ∧
    InodeReadable Fixture.smallFs 2 ∧ typeNumber Fixture.smallFs 2 = 4 ∧
    ¬ flagBit Fixture.smallFs 2 12 ∧ hasExtents Fixture.smallFs 2 ∧
    InodeReadable Fixture.smallFs 8 ∧ typeNumber Fixture.smallFs 8 = 8 ∧
    ¬ hasExtents Fixture.smallFs 8 ∧
    InodeReadable Fixture.smallFs 1 ∧ typeNumber Fixture.smallFs 1 = 0 := by
  refine ⟨⟨?_, ?_, ?_, ?_, ?_, ?_⟩, ?_, ?_, ?_, ⟨?_, ?_, ?_, ?_, ?_, ?_⟩, ?_, ?_, ?_,
    ⟨?_, ?_, ?_, ?_, ?_, ?_⟩, ?_, ?_, ⟨?_, ?_, ?_, ?_, ?_, ?_⟩, ?_⟩ <;> decide +kernel

/-- C75, the four of them opened. -/
theorem C75_case_outcomes : ∃ fs : Ext4Fs InMemory,
    Ext4Fs.open InMemory.streamDev ⟨Fixture.smallFs, 0, 512⟩ () = ((), .ok fs) ∧
    (∃ s f, Ext4Fs.openFile InMemory.streamDev 3 ((), fs) = (s, .ok (.regularFile f)) ∧
      f.fileSizeBytes = 2500) ∧
    (∃ s d, Ext4Fs.openFile InMemory.streamDev 2 ((), fs) = (s, .ok (.directory d))) ∧
    (∃ s, Ext4Fs.openFile InMemory.streamDev 8 ((), fs) = (s, .err .unsupported)) ∧
    (∃ s, Ext4Fs.openFile InMemory.streamDev 1 ((), fs) = (s, .ok (.unsupported (.unknown 0)))) := by
  obtain ⟨fs, h, ho⟩ := smallFs_opened
  have hc : Fixture.smallFs.length < U64 := by rw [smallFs_length]; decide
  obtain ⟨r3, t3, e3, z3, r2, t2, b2, e2, r8, t8, e8, r1, t1⟩ := C75_case
  have hout := fun n hn => C75_outcome InMemory.volumeSpec _ hc () fs trivial ho n hn
  refine ⟨fs, h, ?_, ?_, ?_, ?_⟩
  · obtain ⟨⟨⟩, fs', r, h1, -, -, h2, -⟩ := hout 3 r3
    obtain ⟨f, rfl⟩ := h2 t3 e3
    obtain ⟨-, -, -, -, -, i, fs2, -, -, -, -, -, h3⟩ :=
      C75_success InMemory.volumeSpec _ () () fs fs' trivial ho 3 _ h1
    exact ⟨_, f, h1, h3.trans z3⟩
  · obtain ⟨⟨⟩, fs', r, h1, -, -, -, -, h2, -⟩ := hout 2 r2
    obtain ⟨d, rfl⟩ := h2 t2 b2 e2
    exact ⟨_, d, h1⟩
  · obtain ⟨⟨⟩, fs', r, h1, -, -, -, h2, -⟩ := hout 8 r8
    rw [h2 t8 e8] at h1
    exact ⟨_, h1⟩
  · obtain ⟨⟨⟩, fs', r, h1, -, -, -, -, -, -, h2⟩ := hout 1 r1
    rw [t1] at h2
    rw [h2 (by decide) (by decide)] at h1
    exact ⟨_, h1⟩

end MdRecover
