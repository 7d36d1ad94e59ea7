import Verif.Lemmas.Ext4Inode
import Verif.Lemmas.Volume
import Verif.Fixture.Volume

/- Opening an ext4 volume, its group descriptors, its inode slots and its blocks.

`VolumeSpec F dev G Is At` (Spec/Volume) says that `dev` is a readable and seekable device of a known
content; `F` says whether its operations may fail.  In-memory devices, files and block devices
behind a buffering reader meet it (Lemmas/Volume), so the theorems hold for all of them. -/

namespace MdRecover
open MdSpec
variable [Build]

section
variable {W D : Type} {F : Prop} {dev : StreamDev W D} {G : W → Prop} {Is : D → Bytes → Prop}
  {At : W → D → Nat → Prop}

/-- C57: opening succeeds only on a volume with a valid superblock, per-group counts that are not
zero, the extents feature and no unknown incompatible feature; whatever fails on the way. -/
theorem C57_success (hv : VolumeSpec F dev G Is At) (c : Bytes) (w w' : W) (d : D) (fs : Ext4Fs D)
    (hG : G w) (hI : Is d c) (hb : TableChecked c)
    (h : Ext4Fs.open dev d w = (w', .ok fs)) :
    2048 ≤ c.length ∧ Ext4Readable (sbOf c) ∧
      (groupsOf (sbOf c) = 0 ∨
        groupTableOf (sbOf c) + groupsOf (sbOf c) * le (sbOf c) 0xfe 2 ≤ c.length) := by
  obtain ⟨w1, r, h1, -, h2⟩ := Ext4Fs.open_spec hv hG hI hb
  rw [h] at h1
  cases h1
  rcases h2 with ⟨fs, h2, ho, -⟩ | ⟨-, e, h2⟩ | ⟨-, h2⟩ <;> cases h2
  exact ⟨ho.long, ho.readable, ho.fits⟩

/-- C57, the other direction: a volume that can be opened is opened, if the device does not fail
and holds less than 2^57 bytes. -/
theorem C57_opens (hv : VolumeSpec False dev G Is At) (c : Bytes) (w : W) (d : D) (hG : G w)
    (hI : Is d c) (hc : Ext4Openable c) (hl : c.length < 2 ^ 57) :
    ∃ w' fs, Ext4Fs.open dev d w = (w', .ok fs) ∧ G w' ∧ Is fs.device c := by
  have hb : TableChecked c := .inr (by have := hc.fits; omega)
  obtain ⟨w', r, h1, hG', h2⟩ := Ext4Fs.open_spec hv hG hI hb
  rcases h2 with ⟨fs, rfl, ho, hnp⟩ | ⟨h2 | h2, e, rfl⟩ | ⟨h2, rfl⟩
  · exact ⟨w', fs, h1, hG', ho.device⟩
  · exact h2.elim
  · exact absurd hc h2.1
  · have hf := hc.fits
    have hd := Nat.pos_of_ne_zero hc.readable.descSize
    have hle : groupsOf (sbOf c) ≤ groupsOf (sbOf c) * le (sbOf c) 0xfe 2 :=
      Nat.le_mul_of_pos_right _ hd
    rcases h2.2.2 with h3 | ⟨-, h3 | h3⟩
    · exact absurd h3 hc.readable.blocksPerGroup
    · omega
    · omega

/-- C57 in part: any other volume is rejected with an error, unless it is one of those on which
opening may panic (`OpenMayPanic`).  Missing: opening never panics; see `C57_panics`. -/
theorem C57_rejects_partial (hv : VolumeSpec F dev G Is At) (c : Bytes) (w : W) (d : D) (hG : G w)
    (hI : Is d c) (hb : TableChecked c)
    (hc : ¬ (Ext4Readable (sbOf c) ∧ 2048 ≤ c.length ∧ (groupsOf (sbOf c) = 0 ∨
        groupTableOf (sbOf c) + groupsOf (sbOf c) * le (sbOf c) 0xfe 2 ≤ c.length)))
    (hp : ¬ OpenMayPanic c) : ∃ w' e, Ext4Fs.open dev d w = (w', .err e) ∧ G w' := by
  obtain ⟨w', r, h1, hG', h2⟩ := Ext4Fs.open_spec hv hG hI hb
  rcases h2 with ⟨fs, rfl, ho, hnp⟩ | ⟨-, e, rfl⟩ | ⟨h2, rfl⟩
  · exact absurd ⟨ho.readable, ho.long, ho.fits⟩ hc
  · exact ⟨w', e, h1, hG'⟩
  · exact absurd h2 hp

/-- C57 is false as stated: opening panics on every volume of the set `OpenPanics` that can be
read.  In particular a valid superblock with zero blocks per group is not rejected. -/
theorem C57_panics (hv : VolumeSpec False dev G Is At) (c : Bytes) (w : W) (d : D) (hG : G w)
    (hI : Is d c) (hb : TableChecked c) (hc : OpenPanics c) : ∃ w', Ext4Fs.open dev d w = (w', .panic) := by
  obtain ⟨w', r, h1, hG', h2⟩ := Ext4Fs.open_spec hv hG hI hb
  rcases h2 with ⟨fs, rfl, ho, hnp⟩ | ⟨h2 | h2, e, rfl⟩ | ⟨h2, rfl⟩
  · exact absurd hc hnp
  · exact h2.elim
  · exact absurd hc h2.2
  · exact ⟨w', h1⟩

/-- C58: a successful open has read the descriptors of all groups, `ceil(blocks/blocks_per_group)`
of them, each from its place in the descriptor table. -/
theorem C58_descriptors (hv : VolumeSpec F dev G Is At) (c : Bytes) (w w' : W) (d : D)
    (fs : Ext4Fs D) (hG : G w) (hI : Is d c) (hb : TableChecked c)
    (h : Ext4Fs.open dev d w = (w', .ok fs)) :
    fs.groups.length = groupsOf (sbOf c) ∧
      (∀ i, i < groupsOf (sbOf c) → fs.groups[i]? = some (BlockGroup.new (descriptorOf c i))) ∧
      fs.superblock.bytes = sbOf c ∧ Is fs.device c := by
  obtain ⟨w1, r, h1, -, h2⟩ := Ext4Fs.open_spec hv hG hI hb
  rw [h] at h1
  cases h1
  rcases h2 with ⟨fs, h2, ho, -⟩ | ⟨-, e, h2⟩ | ⟨-, h2⟩ <;> cases h2
  exact ⟨by rw [ho.groups]; simp, fun i hi => ho.group hi, ho.superblock, ho.device⟩

omit [Build] in
/-- C58: the number of groups is the least number of groups that holds all blocks. -/
theorem C58_count (sb : Bytes) (h : le sb 0x20 4 ≠ 0) :
    blocksOf sb ≤ groupsOf sb * le sb 0x20 4 ∧
      ∀ n, blocksOf sb ≤ n * le sb 0x20 4 → groupsOf sb ≤ n := by
  unfold groupsOf
  generalize le sb 0x20 4 = g at h
  generalize blocksOf sb = b
  have hg : 0 < g := by omega
  constructor
  · have h1 := Nat.div_add_mod (b + g - 1) g
    have h2 := Nat.mod_lt (b + g - 1) hg
    rw [Nat.mul_comm] at h1
    omega
  · intro n hn
    rw [Nat.div_le_iff_le_mul_add_pred hg]
    rw [Nat.mul_comm] at hn
    omega

omit [Build] in
/-- C58: the fields of a descriptor are the integers at the offsets of the kernel's
`struct ext4_group_desc`; bytes beyond the end of a short descriptor count as zero. -/
theorem C58_fields (b : Bytes) :
    (BlockGroup.new b).blockBitmapBlock = le b 0x0 4 + le b 0x20 4 * 2 ^ 32
    ∧ (BlockGroup.new b).inodeBitmapBlock = le b 0x4 4 + le b 0x24 4 * 2 ^ 32
    ∧ (BlockGroup.new b).inodeTableBlock = le b 0x8 4 + le b 0x28 4 * 2 ^ 32
    ∧ (BlockGroup.new b).freeBlockCount = le b 0xc 2 + le b 0x2c 2 * 2 ^ 16
    ∧ (BlockGroup.new b).freeInodeCount = le b 0xe 2 + le b 0x2e 2 * 2 ^ 16
    ∧ (BlockGroup.new b).usedDirectoriesCount = le b 0x10 2 + le b 0x30 2 * 2 ^ 16
    ∧ (BlockGroup.new b).flags = le b 0x12 2
    ∧ (BlockGroup.new b).excludeBitmapBlock = le b 0x14 4 + le b 0x34 4 * 2 ^ 32
    ∧ (BlockGroup.new b).blockBitmapChecksum = le b 0x18 2 + le b 0x38 2 * 2 ^ 16
    ∧ (BlockGroup.new b).inodeBitmapChecksum = le b 0x1a 2 + le b 0x3a 2 * 2 ^ 16
    ∧ (BlockGroup.new b).unusedInodeCount = le b 0x1c 2 + le b 0x32 2 * 2 ^ 16
    ∧ (BlockGroup.new b).checksum = le b 0x1e 2 := by
  have h32 : ∀ {f g : GroupField} {o p : Nat},
      (groupLayout.offset f, groupLayout.width f) = (o, 4) → o + 4 ≤ 60 →
      (groupLayout.offset g, groupLayout.width g) = (p, 4) → p + 4 ≤ 60 →
      fromLowHigh 32 ((BlockGroup.new b).get f) ((BlockGroup.new b).get g)
        = le b o 4 + le b p 4 * 2 ^ 32 := by
    intro f g o p h1 h2 h3 h4
    rw [BlockGroup.get_at h1 h2, BlockGroup.get_at h3 h4,
      (C51_value 32 _ _ (le_lt _ _ 4) (le_lt _ _ 4)).1]
  have h16 : ∀ {f g : GroupField} {o p : Nat},
      (groupLayout.offset f, groupLayout.width f) = (o, 2) → o + 2 ≤ 60 →
      (groupLayout.offset g, groupLayout.width g) = (p, 2) → p + 2 ≤ 60 →
      fromLowHigh 16 ((BlockGroup.new b).get f) ((BlockGroup.new b).get g)
        = le b o 2 + le b p 2 * 2 ^ 16 := by
    intro f g o p h1 h2 h3 h4
    rw [BlockGroup.get_at h1 h2, BlockGroup.get_at h3 h4,
      (C51_value 16 _ _ (le_lt _ _ 2) (le_lt _ _ 2)).1]
  refine ⟨?_, ?_, ?_, ?_, ?_, ?_, ?_, ?_, ?_, ?_, ?_, ?_⟩
  · exact h32 (by decide +kernel) (by omega) (by decide +kernel) (by omega)
  · exact h32 (by decide +kernel) (by omega) (by decide +kernel) (by omega)
  · exact h32 (by decide +kernel) (by omega) (by decide +kernel) (by omega)
  · exact h16 (by decide +kernel) (by omega) (by decide +kernel) (by omega)
  · exact h16 (by decide +kernel) (by omega) (by decide +kernel) (by omega)
  · exact h16 (by decide +kernel) (by omega) (by decide +kernel) (by omega)
  · exact BlockGroup.get_at (by decide +kernel) (by omega) b
  · exact h32 (by decide +kernel) (by omega) (by decide +kernel) (by omega)
  · exact h16 (by decide +kernel) (by omega) (by decide +kernel) (by omega)
  · exact h16 (by decide +kernel) (by omega) (by decide +kernel) (by omega)
  · exact h16 (by decide +kernel) (by omega) (by decide +kernel) (by omega)
  · exact BlockGroup.get_at (by decide +kernel) (by omega) b

omit [Build] in
/-- C58: a 32-byte descriptor has no high halves. -/
theorem C58_short (b : Bytes) (hb : b.length ≤ 32) :
    (BlockGroup.new b).blockBitmapBlock = le b 0x0 4
    ∧ (BlockGroup.new b).inodeBitmapBlock = le b 0x4 4
    ∧ (BlockGroup.new b).inodeTableBlock = le b 0x8 4
    ∧ (BlockGroup.new b).freeBlockCount = le b 0xc 2
    ∧ (BlockGroup.new b).freeInodeCount = le b 0xe 2
    ∧ (BlockGroup.new b).usedDirectoriesCount = le b 0x10 2
    ∧ (BlockGroup.new b).excludeBitmapBlock = le b 0x14 4
    ∧ (BlockGroup.new b).blockBitmapChecksum = le b 0x18 2
    ∧ (BlockGroup.new b).inodeBitmapChecksum = le b 0x1a 2
    ∧ (BlockGroup.new b).unusedInodeCount = le b 0x1c 2 := by
  have h0 : ∀ off w, 32 ≤ off → le b off w = 0 := by
    intro off w ho
    unfold le
    rw [List.drop_of_length_le (by omega)]; simp [leNat]
  obtain ⟨h1, h2, h3, h4, h5, h6, -, h7, h8, h9, h10, -⟩ := C58_fields b
  rw [h1, h2, h3, h4, h5, h6, h7, h8, h9, h10]
  simp only [h0 0x20 4 (by omega), h0 0x24 4 (by omega), h0 0x28 4 (by omega),
    h0 0x2c 2 (by omega), h0 0x2e 2 (by omega), h0 0x30 2 (by omega), h0 0x34 4 (by omega),
    h0 0x38 2 (by omega), h0 0x3a 2 (by omega), h0 0x32 2 (by omega), Nat.zero_mul, Nat.add_zero,
    and_self]

/-- C59: a number that is zero, above the inode count or in a group that does not exist is
refused. -/
theorem C59_invalid_number (hv : VolumeSpec F dev G Is At) (c : Bytes) (w : W) (fs : Ext4Fs D)
    (hG : G w) (ho : Opened Is c fs) (n : Nat)
    (hn : n = 0 ∨ le (sbOf c) 0 4 < n ∨ groupsOf (sbOf c) ≤ (n - 1) / le (sbOf c) 0x28 4) :
    ∃ w' fs', Ext4Fs.readInode dev n (w, fs) = ((w', fs'), .err .invalidInput) ∧ G w' ∧
      Opened Is c fs' := by
  obtain ⟨w', fs', r, h1, hG', ho', -, h2⟩ := Ext4Fs.readInode_spec hv hG ho n
  rcases h2 with ⟨-, rfl⟩ | ⟨h2, -⟩
  · exact ⟨w', fs', h1, hG', ho'⟩
  · exact absurd hn h2

/-- C59: an inode that is returned was read from its slot in the inode table of its group. -/
theorem C59_slot (hv : VolumeSpec F dev G Is At) (c : Bytes) (w w' : W) (fs fs' : Ext4Fs D)
    (hG : G w) (ho : Opened Is c fs) (n : Nat) (i : Inode)
    (h : Ext4Fs.readInode dev n (w, fs) = ((w', fs'), .ok i)) :
    1 ≤ n ∧ n ≤ le (sbOf c) 0 4 ∧ (n - 1) / le (sbOf c) 0x28 4 < groupsOf (sbOf c) ∧
      (le (sbOf c) 0x58 2 = 0 ∨ inodeSlot c n + le (sbOf c) 0x58 2 ≤ c.length) ∧
      Inode.new fs.superblock n ((c.drop (inodeSlot c n)).take (le (sbOf c) 0x58 2)) = .ok i ∧
      G w' ∧ Opened Is c fs' := by
  obtain ⟨w1, fs1, r, h1, hG', ho', -, h2⟩ := Ext4Fs.readInode_spec hv hG ho n
  rw [h] at h1
  cases h1
  rcases h2 with ⟨-, h2⟩ | ⟨h2, ⟨-, e, h3⟩ | ⟨h3, h4⟩⟩
  · cases h2
  · cases h3
  · exact ⟨by omega, by omega, by omega, h3, h4.symm, hG', ho'⟩

/-- C59: if the device does not fail and the slot is inside it, the inode at the slot is read. -/
theorem C59_reads (hv : VolumeSpec False dev G Is At) (c : Bytes) (w : W) (fs : Ext4Fs D)
    (hG : G w) (ho : Opened Is c fs) (n : Nat) (h1 : 1 ≤ n) (h2 : n ≤ le (sbOf c) 0 4)
    (h3 : (n - 1) / le (sbOf c) 0x28 4 < groupsOf (sbOf c))
    (h4 : inodeSlot c n + le (sbOf c) 0x58 2 ≤ c.length) (h5 : c.length < U64) :
    ∃ w' fs', Ext4Fs.readInode dev n (w, fs) = ((w', fs'),
        Inode.new fs.superblock n ((c.drop (inodeSlot c n)).take (le (sbOf c) 0x58 2))) ∧
      G w' ∧ Opened Is c fs' := by
  obtain ⟨w', fs', r, h, hG', ho', -, h6⟩ := Ext4Fs.readInode_spec hv hG ho n
  rcases h6 with ⟨h6, -⟩ | ⟨-, ⟨h6 | h6 | h6, -⟩ | ⟨-, rfl⟩⟩
  · omega
  · exact h6.elim
  · omega
  · omega
  · exact ⟨w', fs', h, hG', ho'⟩

omit [Build] in
/-- C59: the slots of different inodes of a group do not overlap. -/
theorem C59_disjoint (c : Bytes) (n m : Nat) (hn : 1 ≤ n) (hnm : n < m)
    (hg : (n - 1) / le (sbOf c) 0x28 4 = (m - 1) / le (sbOf c) 0x28 4) :
    inodeSlot c n + le (sbOf c) 0x58 2 ≤ inodeSlot c m := by
  unfold inodeSlot
  rw [hg]
  generalize le (sbOf c) 0x28 4 = g at *
  have h1 := Nat.div_add_mod (n - 1) g
  have h2 := Nat.div_add_mod (m - 1) g
  rw [hg] at h1
  have h3 : (n - 1) % g + 1 ≤ (m - 1) % g := by omega
  have h4 := Nat.mul_le_mul_right (le (sbOf c) 0x58 2) h3
  rw [Nat.add_mul, Nat.one_mul] at h4
  omega

/-- C59 as the user sees it: `read_root_inode` is `read_inode(2)`. -/
theorem C59_root (dev : StreamDev W D) : Ext4Fs.readRootInode dev = Ext4Fs.readInode dev 2 := rfl

/-- C74 in part: a block that is returned is the bytes of the volume at `block * block_size`, as many
as the buffer holds; a short buffer, an offset of 2^64 or more and a block outside the volume give
an error, never a panic.  Missing: block numbers beyond the block count of the filesystem but inside
the volume are not refused (`C74_no_block_check`). -/
theorem C74_read_partial (hv : VolumeSpec F dev G Is At) (c : Bytes) (w : W) (fs : Ext4Fs D)
    (hG : G w) (ho : Opened Is c fs) (b : Nat) (buf : Bytes) :
    ∃ w' fs' r, Ext4Fs.readBlock dev b buf (w, fs) = ((w', fs'), r) ∧ G w' ∧ Opened Is c fs' ∧
      ((∃ e, r = .err e) ∨
       (blockSizeOf (sbOf c) ≤ buf.length ∧ b * blockSizeOf (sbOf c) + buf.length ≤ c.length ∧
          r = .ok ((c.drop (b * blockSizeOf (sbOf c))).take buf.length))) := by
  obtain ⟨w', fs', r, h, hG', ho', -, h1⟩ := Ext4Fs.readBlock_spec hv hG ho b buf
  refine ⟨w', fs', r, h, hG', ho', ?_⟩
  rcases h1 with ⟨-, h1⟩ | h1
  · exact .inl h1
  · exact .inr h1

/-- C74: on a device that does not fail, a block inside the volume is read into a buffer that holds
it. -/
theorem C74_reads (hv : VolumeSpec False dev G Is At) (c : Bytes) (w : W) (fs : Ext4Fs D)
    (hG : G w) (ho : Opened Is c fs) (b : Nat) (buf : Bytes)
    (h1 : blockSizeOf (sbOf c) ≤ buf.length)
    (h2 : b * blockSizeOf (sbOf c) + buf.length ≤ c.length) (h3 : c.length < U64) :
    ∃ w' fs', Ext4Fs.readBlock dev b buf (w, fs) = ((w', fs'),
        .ok ((c.drop (b * blockSizeOf (sbOf c))).take buf.length)) ∧ G w' ∧ Opened Is c fs' := by
  obtain ⟨w', fs', r, h, hG', ho', -, h4⟩ := Ext4Fs.readBlock_spec hv hG ho b buf
  rcases h4 with ⟨h4 | h4 | h4 | h4, -⟩ | ⟨-, -, rfl⟩
  · exact h4.elim
  · omega
  · omega
  · omega
  · exact ⟨w', fs', h, hG', ho'⟩

end

/-! Concrete volumes. -/

namespace Fixture

/-- A content with some bytes replaced. -/
def patch (b : Bytes) (off : Nat) (src : Bytes) : Bytes :=
  b.take off ++ src ++ b.drop (off + src.length)

/-- The hand-made filesystem with zero blocks per group. -/
@[irreducible] def noBlocksPerGroup : Bytes := patch smallFs (1024 + 0x20) [0, 0, 0, 0, 0, 0, 0, 0]
/-- The hand-made filesystem with blocks of 2^62 bytes and first data block 3. -/
@[irreducible] def hugeBlocks : Bytes := patch smallFs (1024 + 0x14) [3, 0, 0, 0, 52, 0, 0, 0, 52, 0, 0, 0]
/-- The hand-made filesystem with one block per group and 2^60 blocks. -/
@[irreducible] def manyGroups : Bytes :=
  patch (patch smallFs (1024 + 0x20) [1, 0, 0, 0, 1, 0, 0, 0]) (1024 + 0x150) [0, 0, 0, 16]

end Fixture

set_option maxRecDepth 100000 in
theorem fixture_sb_valid :
    (Ext4Superblock.mk (sbOf Fixture.smallFs)).valid = .ok true
    ∧ (Ext4Superblock.mk (sbOf Fixture.imageHead)).valid = .ok true
    ∧ (Ext4Superblock.mk (sbOf Fixture.noBlocksPerGroup)).valid = .ok true
    ∧ (Ext4Superblock.mk (sbOf Fixture.hugeBlocks)).valid = .ok true
    ∧ (Ext4Superblock.mk (sbOf Fixture.manyGroups)).valid = .ok true := by
  decide +kernel +revert

/-- Deciding `Ext4Readable`. -/
theorem readable_of {sb : Bytes} (hv : (Ext4Superblock.mk sb).valid = .ok true)
    (hu : Ext4Fs.unsupported ⟨sb⟩ = false) : Ext4Readable sb :=
  (Ext4Fs.unsupported_iff ⟨sb⟩ hv).1 hu

omit [Build] in
set_option maxRecDepth 100000 in
theorem fixture_readable :
    Ext4Fs.unsupported ⟨sbOf Fixture.smallFs⟩ = false
    ∧ Ext4Fs.unsupported ⟨sbOf Fixture.imageHead⟩ = false
    ∧ Ext4Fs.unsupported ⟨sbOf Fixture.hugeBlocks⟩ = false
    ∧ Ext4Fs.unsupported ⟨sbOf Fixture.manyGroups⟩ = false := by
  decide +kernel

set_option maxRecDepth 100000 in
/-- Case for C57 and C58: a real image and the hand-made one can be opened. -/
theorem fixture_openable : Ext4Openable Fixture.imageHead ∧ Ext4Openable Fixture.smallFs :=
  ⟨⟨by decide +kernel, readable_of fixture_sb_valid.2.1 fixture_readable.2.1, by decide +kernel⟩,
   ⟨by decide +kernel, readable_of fixture_sb_valid.1 fixture_readable.1, by decide +kernel⟩⟩

omit [Build] in
set_option maxRecDepth 100000 in
theorem fixture_panic_values :
    (2048 ≤ Fixture.noBlocksPerGroup.length ∧ le (sbOf Fixture.noBlocksPerGroup) 0x20 4 = 0)
    ∧ (2048 ≤ Fixture.hugeBlocks.length ∧ U64 ≤ groupTableOf (sbOf Fixture.hugeBlocks))
    ∧ (2048 ≤ Fixture.manyGroups.length
      ∧ groupTableOf (sbOf Fixture.manyGroups) ≤ Fixture.manyGroups.length
      ∧ 2 ^ 63 ≤ groupsOf (sbOf Fixture.manyGroups) * 60) := by
  decide +kernel

omit [Build] in
set_option maxRecDepth 100000 in
theorem fixture_tables : groupTableOf (sbOf Fixture.noBlocksPerGroup) < U64
    ∧ groupTableOf (sbOf Fixture.manyGroups) < U64 := by
  decide +kernel

/-- C57 is false as stated: three volumes that panic, for each of the three reasons. -/
theorem C57_panics_on : OpenPanics Fixture.noBlocksPerGroup ∧ OpenPanics Fixture.hugeBlocks ∧
    OpenPanics Fixture.manyGroups := by
  obtain ⟨⟨h1, h2⟩, ⟨h3, h4⟩, h5, h6⟩ := fixture_panic_values
  obtain ⟨-, -, v1, v2, v3⟩ := fixture_sb_valid
  obtain ⟨-, -, r2, r3⟩ := fixture_readable
  exact ⟨⟨h1, (Ext4Superblock.valid_iff _).1 v1, .inl h2⟩,
    ⟨h3, (Ext4Superblock.valid_iff _).1 v2, .inr ⟨readable_of v2 r2, .inl h4⟩⟩,
    ⟨h5, (Ext4Superblock.valid_iff _).1 v3, .inr ⟨readable_of v3 r3, .inr h6⟩⟩⟩

/-- Two of the volumes, in memory, panic in any build. -/
example : (∃ w', Ext4Fs.open InMemory.streamDev ⟨Fixture.noBlocksPerGroup, 0, 512⟩ () = (w', .panic))
    ∧ (∃ w', Ext4Fs.open InMemory.streamDev ⟨Fixture.manyGroups, 0, 512⟩ () = (w', .panic)) :=
  ⟨C57_panics InMemory.volumeSpec _ _ _ trivial rfl (.inr fixture_tables.1) C57_panics_on.1,
   C57_panics InMemory.volumeSpec _ _ _ trivial rfl (.inr fixture_tables.2) C57_panics_on.2.2⟩

/-- The third panics if overflow is checked. -/
example (h : Build.overflowChecks = true) :
    ∃ w', Ext4Fs.open InMemory.streamDev ⟨Fixture.hugeBlocks, 0, 512⟩ () = (w', .panic) :=
  C57_panics InMemory.volumeSpec _ _ _ trivial rfl (.inl h) C57_panics_on.2.1

set_option maxRecDepth 100000 in
/-- Case for C57: a content without superblock is rejected. -/
example : ∃ w' e, Ext4Fs.open InMemory.streamDev ⟨zeros 4096, 0, 512⟩ () = (w', .err e) := by
  have hm : le (sbOf (zeros 4096)) 0x38 2 ≠ 0xef53 := by decide +kernel
  obtain ⟨w', e, h, -⟩ := C57_rejects_partial InMemory.volumeSpec (zeros 4096) () ⟨zeros 4096, 0, 512⟩
    trivial rfl (.inr (by decide +kernel)) (fun h => hm h.1.ok.magic) (fun h => hm h.2.1.magic)
  exact ⟨w', e, h⟩

/-- A descriptor size of zero, usual on filesystems without the 64-bit feature, makes the volume
unreadable. -/
theorem C57_needs_descriptor_size {W D : Type} {F : Prop} {dev : StreamDev W D} {G : W → Prop}
    {Is : D → Bytes → Prop} {At : W → D → Nat → Prop} (hv : VolumeSpec F dev G Is At) (c : Bytes)
    (w w' : W) (d : D) (fs : Ext4Fs D) (hG : G w) (hI : Is d c) (hb : TableChecked c)
    (hz : le (sbOf c) 0xfe 2 = 0) : Ext4Fs.open dev d w ≠ (w', .ok fs) :=
  fun h => (C57_success hv c w w' d fs hG hI hb h).2.1.descSize hz

/-- Opening a volume in memory. -/
theorem opened_of {c : Bytes} (hc : Ext4Openable c) (hl : c.length < 2 ^ 57) :
    ∃ fs : Ext4Fs InMemory, Ext4Fs.open InMemory.streamDev ⟨c, 0, 512⟩ () = ((), .ok fs) ∧
      Opened (fun d c => d.mem = c) c fs := by
  obtain ⟨⟨⟩, fs, h, -⟩ := C57_opens InMemory.volumeSpec c () ⟨c, 0, 512⟩ trivial rfl hc hl
  obtain ⟨w1, r, h1, -, h2⟩ := Ext4Fs.open_spec InMemory.volumeSpec (w := ())
    (d := (⟨c, 0, 512⟩ : InMemory)) (c := c) trivial rfl
    (.inr (by have := hc.fits; omega))
  rw [h] at h1
  cases h1
  rcases h2 with ⟨fs, h2, ho, -⟩ | ⟨-, e, h2⟩ | ⟨-, h2⟩ <;> cases h2
  exact ⟨fs, h, ho⟩

omit [Build] in
set_option maxRecDepth 100000 in
theorem smallFs_length : Fixture.smallFs.length = 13312 := by decide +kernel

/-- The opened hand-made filesystem. -/
theorem smallFs_opened : ∃ fs : Ext4Fs InMemory,
    Ext4Fs.open InMemory.streamDev ⟨Fixture.smallFs, 0, 512⟩ () = ((), .ok fs) ∧
      Opened (fun d c => d.mem = c) Fixture.smallFs fs :=
  opened_of fixture_openable.2 (by rw [smallFs_length]; omega)

set_option maxRecDepth 100000 in
/-- Case for C58 and C59: the hand-made filesystem has one group with its inode table in block 3;
inode 3 is at 3584; the slots are inside the volume. -/
example : groupsOf (sbOf Fixture.smallFs) = 1 ∧ inodeTableOf Fixture.smallFs 0 = 3
    ∧ inodeSlot Fixture.smallFs 3 = 3584
    ∧ inodeSlot Fixture.smallFs 3 + le (sbOf Fixture.smallFs) 0x58 2 ≤ Fixture.smallFs.length
    ∧ 3 ≤ le (sbOf Fixture.smallFs) 0 4
    ∧ (3 - 1) / le (sbOf Fixture.smallFs) 0x28 4 < groupsOf (sbOf Fixture.smallFs) := by
  decide +kernel

set_option maxRecDepth 100000 in
/-- The test descriptor of the repository has the values its unit test expects; so does a 32-byte
one, up to the high halves. -/
example : (BlockGroup.new Fixture.descriptor).inodeTableBlock = le Fixture.descriptor 8 4
    ∧ (BlockGroup.new (Fixture.descriptor.take 32)).inodeTableBlock = le Fixture.descriptor 8 4 := by
  decide +kernel

namespace Fixture
/-- The hand-made filesystem in a longer volume. -/
@[irreducible] def longFs : Bytes := smallFs ++ zeros 1024
end Fixture

omit [Build] in
set_option maxRecDepth 100000 in
theorem longFs_values : sbOf Fixture.longFs = sbOf Fixture.smallFs
    ∧ Fixture.longFs.length = 14336 ∧ blockSizeOf (sbOf Fixture.longFs) = 1024
    ∧ blocksOf (sbOf Fixture.longFs) = 13
    ∧ groupTableOf (sbOf Fixture.longFs) + groupsOf (sbOf Fixture.longFs) *
        le (sbOf Fixture.longFs) 0xfe 2 ≤ 14336 := by
  decide +kernel

/-- C74 is false as stated: block 13 of a filesystem of 13 blocks is read without an error if the
volume is longer. -/
theorem C74_no_block_check : ∃ (c : Bytes) (fs fs' : Ext4Fs InMemory) (data : Bytes),
    Opened (fun d c => d.mem = c) c fs ∧ blocksOf (sbOf c) = 13 ∧
      Ext4Fs.readBlock InMemory.streamDev 13 (zeros 1024) ((), fs) = (((), fs'), .ok data) := by
  obtain ⟨h1, h2, h3, h4, h5⟩ := longFs_values
  have hopen : Ext4Openable Fixture.longFs :=
    ⟨by omega, by rw [h1]; exact fixture_openable.2.readable, by rw [h2]; exact h5⟩
  obtain ⟨fs, -, ho⟩ := opened_of hopen (by omega)
  obtain ⟨⟨⟩, fs', h6, -⟩ := C74_reads InMemory.volumeSpec _ () fs trivial ho 13 (zeros 1024)
    (by rw [h3, zeros, List.length_replicate]) (by rw [h2, h3, zeros, List.length_replicate])
    (by omega)
  exact ⟨_, fs, fs', _, ho, h4, h6⟩

end MdRecover
