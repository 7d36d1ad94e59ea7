import Verif.Lemmas.Ext4Inode
import Verif.Spec.Ext4Inode
import Verif.Props.Crc
import Verif.Fixture.Volume

/- Inodes: C60 (decoding), C61 (times), C62 (modes and file types). -/

namespace MdRecover
open MdSpec
variable [Build]

omit [Build] in
/-- C60: when decoding panics, exactly: the declared extra size exceeds the 32 bytes the layout knows,
or the inode declares more than the buffer holds. -/
theorem C60_panics_iff (sb : Ext4Superblock) (n : Nat) (b : Bytes) :
    Inode.new sb n b = .panic ↔ 32 < extraOf b ∨ b.length < 128 + extraOf b := by
  have h160 : inodeLayout.size = 160 := by decide +kernel
  have hs : Inode.sourceLength b = 128 + min (extraOf b) 160 := Inode.sourceLength_eq b
  unfold Inode.new Inode.makeStorage
  rw [h160]
  simp only [hs]
  by_cases h1 : 160 < 128 + min (extraOf b) 160
  · rw [if_pos h1]
    refine ⟨fun _ => .inl (by omega), fun _ => rfl⟩
  rw [if_neg h1]
  by_cases h2 : b.length < 128 + min (extraOf b) 160
  · rw [if_pos h2]
    refine ⟨fun _ => .inr (by omega), fun _ => rfl⟩
  rw [if_neg h2]
  refine ⟨fun h => (by cases h), fun h => ?_⟩
  omega

omit [Build] in
/-- C60 is false as stated: a 256-byte inode of which only the extra size is set, to 64, and a
127-byte inode. -/
theorem C60_panics (sb : Ext4Superblock) (n : Nat) :
    Inode.new sb n (zeros 128 ++ [64] ++ zeros 127) = .panic ∧ Inode.new sb n (zeros 127) = .panic := by
  rw [C60_panics_iff, C60_panics_iff]
  exact ⟨.inl (by decide +kernel), .inr (by decide +kernel)⟩

omit [Build] in
/-- C60 in part: an inode that declares an extra size of at most 32, and is as long as it declares, is
decoded: its storage is the declared part, filled up with zeros.  Missing: every other content is
decoded too (it panics, `C60_panics_iff`). -/
theorem C60_decode_partial (sb : Ext4Superblock) (n : Nat) (b : Bytes) (h1 : extraOf b ≤ 32)
    (h2 : 128 + extraOf b ≤ b.length) :
    ∃ i, Inode.new sb n b = .ok i ∧ i.storage = inodePart b ++ List.replicate (32 - extraOf b) 0 := by
  have h160 : inodeLayout.size = 160 := by decide +kernel
  have hs : Inode.sourceLength b = 128 + min (extraOf b) 160 := Inode.sourceLength_eq b
  unfold Inode.new Inode.makeStorage
  rw [h160]
  simp only [hs]
  rw [if_neg (by omega), if_neg (by omega), Nat.min_eq_left (by omega)]
  refine ⟨_, rfl, ?_⟩
  show overwrite _ _ = _
  have hl : (b.take (128 + extraOf b)).length = 128 + extraOf b := by
    rw [List.length_take]; omega
  rw [overwrite, hl, zeros, List.drop_replicate, inodePart]
  congr 2
  omega

omit [Build] in
/-- The storage of a decoded inode. -/
theorem inode_storage {sb : Ext4Superblock} {n : Nat} {b : Bytes} {i : Inode}
    (h : Inode.new sb n b = .ok i) : i.storage = overwrite (zeros 160) (inodePart b) := by
  have hp : Inode.new sb n b ≠ .panic := by rw [h]; exact fun h => (by cases h)
  rw [Ne, C60_panics_iff] at hp
  obtain ⟨j, h1, h2⟩ := C60_decode_partial sb n b (by omega) (by omega)
  rw [h] at h1
  cases h1
  rw [h2, overwrite, zeros, List.drop_replicate]
  congr 2
  rw [inodePart, List.length_take]
  omega

omit [Build] in
/-- C60: the fields of a decoded inode are the integers at the offsets of the kernel's `struct
ext4_inode` in its declared part; those beyond it are zero. -/
theorem C60_fields (sb : Ext4Superblock) (n : Nat) (b : Bytes) (i : Inode)
    (h : Inode.new sb n b = .ok i) :
    i.fileMode = ⟨le (inodePart b) 0x0 2⟩
    ∧ i.ownerUserId = le (inodePart b) 0x2 2 + le (inodePart b) 0x78 2 * 2 ^ 16
    ∧ i.fileSizeBytes = le (inodePart b) 0x4 4 + le (inodePart b) 0x6c 4 * 2 ^ 32
    ∧ i.groupId = le (inodePart b) 0x18 2 + le (inodePart b) 0x7a 2 * 2 ^ 16
    ∧ i.linksCount = le (inodePart b) 0x1a 2
    ∧ i.blockCount = le (inodePart b) 0x1c 4 + le (inodePart b) 0x74 2 * 2 ^ 32
    ∧ i.flags = le (inodePart b) 0x20 4
    ∧ i.version = le (inodePart b) 0x24 4 + le (inodePart b) 0x98 4 * 2 ^ 32
    ∧ i.blocksBuffer = (b.drop 0x28).take 60
    ∧ i.generation = le (inodePart b) 0x64 4
    ∧ i.fileAcl = le (inodePart b) 0x68 4 + le (inodePart b) 0x76 2 * 2 ^ 32
    ∧ i.checksum = le (inodePart b) 0x7c 2 + le (inodePart b) 0x82 2 * 2 ^ 16
    ∧ i.projectId = le (inodePart b) 0x9c 4 := by
  have hs := inode_storage h
  have hp : Inode.new sb n b ≠ .panic := by rw [h]; exact fun h => (by cases h)
  rw [Ne, C60_panics_iff] at hp
  obtain ⟨st, m⟩ := i
  simp only at hs
  subst hs
  have hl : ∀ o, le (inodePart b) o 2 < 2 ^ 32 := fun o =>
    Nat.lt_of_lt_of_le (le_lt _ _ 2) (by decide)
  refine ⟨?_, ?_, ?_, ?_, ?_, ?_, ?_, ?_, ?_, ?_, ?_, ?_, ?_⟩
  · exact congrArg FileMode.mk (Inode.get_at (by decide +kernel) _ _)
  · rw [Inode.ownerUserId, Inode.get_at (off := 0x2) (w := 2) (by decide +kernel),
      Inode.get_at (off := 0x78) (w := 2) (by decide +kernel),
      (C51_value 16 _ _ (le_lt _ _ 2) (le_lt _ _ 2)).1]
  · rw [Inode.fileSizeBytes, Inode.get_at (off := 0x4) (w := 4) (by decide +kernel),
      Inode.get_at (off := 0x6c) (w := 4) (by decide +kernel),
      (C51_value 32 _ _ (le_lt _ _ 4) (le_lt _ _ 4)).1]
  · rw [Inode.groupId, Inode.get_at (off := 0x18) (w := 2) (by decide +kernel),
      Inode.get_at (off := 0x7a) (w := 2) (by decide +kernel),
      (C51_value 16 _ _ (le_lt _ _ 2) (le_lt _ _ 2)).1]
  · exact Inode.get_at (by decide +kernel) _ _
  · rw [Inode.blockCount, Inode.get_at (off := 0x1c) (w := 4) (by decide +kernel),
      Inode.get_at (off := 0x74) (w := 2) (by decide +kernel),
      (C51_value 32 _ _ (le_lt _ _ 4) (hl _)).1]
  · exact Inode.get_at (by decide +kernel) _ _
  · rw [Inode.version, Inode.get_at (off := 0x24) (w := 4) (by decide +kernel),
      Inode.get_at (off := 0x98) (w := 4) (by decide +kernel),
      (C51_value 32 _ _ (le_lt _ _ 4) (le_lt _ _ 4)).1]
  · have h1 : inodeLayout.offset .blocks = 0x28 := by decide +kernel
    have h2 : inodeLayout.width .blocks = 60 := by decide +kernel
    show slice _ (inodeLayout.offset .blocks) (inodeLayout.width .blocks) = _
    rw [h1, h2, overwrite, slice_append_left, inodePart]
    · show ((b.take _).drop 0x28).take 60 = _
      rw [List.drop_take, List.take_take, Nat.min_eq_left (by omega)]
    · rw [inodePart, List.length_take]; omega
  · exact Inode.get_at (by decide +kernel) _ _
  · rw [Inode.fileAcl, Inode.get_at (off := 0x68) (w := 4) (by decide +kernel),
      Inode.get_at (off := 0x76) (w := 2) (by decide +kernel),
      (C51_value 32 _ _ (le_lt _ _ 4) (hl _)).1]
  · rw [Inode.checksum, Inode.get_at (off := 0x7c) (w := 2) (by decide +kernel),
      Inode.get_at (off := 0x82) (w := 2) (by decide +kernel),
      (C51_value 16 _ _ (le_lt _ _ 2) (le_lt _ _ 2)).1]
  · exact Inode.get_at (by decide +kernel) _ _

omit [Build] in
/-- C60: with metadata checksums the seed of an inode is the CRC32C of its number and its
generation, begun with the seed of the filesystem; without them there is none. -/
theorem C60_seed (sb : Ext4Superblock) (n : Nat) (b : Bytes) (i : Inode)
    (h : Inode.new sb n b = .ok i) :
    (le sb.bytes 0x64 4 / 2 ^ 10 % 2 = 1 → ∃ s : BitVec 32, i.metadataChecksumSeed = some s.toNat ∧
        IsCrc32c (BitVec.ofNat 32 sb.checksumSeed) (leBytes 4 n ++ (b.drop 0x64).take 4) s) ∧
    (¬ le sb.bytes 0x64 4 / 2 ^ 10 % 2 = 1 → i.metadataChecksumSeed = none) := by
  have hf := Ext4Superblock.get_at (f := .readOnlyCompatibleFeatures) (off := 0x64) (w := 4)
    (by decide +kernel) sb
  have hi : i.metadataChecksumSeed = Inode.makeSeed sb n b := by
    unfold Inode.new at h
    rcases hm : Inode.makeStorage b with s | e | _ <;> rw [hm] at h <;> cases h
    rfl
  have h1 : inodeLayout.offset .generation = 0x64 := by decide +kernel
  have h2 : inodeLayout.width .generation = 4 := by decide +kernel
  rw [hi]
  unfold Inode.makeSeed Ext4Superblock.readOnlyCompatibleFeatures
  rw [hf, hasBit_iff, h1, h2]
  constructor
  · intro hb
    rw [if_pos (by simpa using hb)]
    refine ⟨_, rfl, ?_⟩
    rw [← C52_pieces]
    exact (C52_polynomial_division _ _ _).1 rfl
  · intro hb
    rw [if_neg (by simpa using hb)]

omit [Build] in
/-- C61: decoding gives the time the format encodes. -/
theorem C61_value (low extra : Nat) : decodeExtraTime low extra = timeOf low extra := by
  have h1 : ∀ v : Nat, v &&& 3 = v % 4 := fun v => Nat.and_two_pow_sub_one_eq_mod v 2
  unfold decodeExtraTime timeOf asI32
  rw [h1, Nat.shiftLeft_eq, Nat.shiftRight_eq_div_pow]
  have : ((extra % 4 * 2 ^ 32 : Nat) : Int) = 2 ^ 32 * ((extra % 4 : Nat) : Int) := by
    push_cast; ring
  simp only [this]
  norm_num

omit [Build] in
/-- C61: the times of an inode are decoded from the kernel's fields; words beyond its declared part
count as zero. -/
theorem C61_fields (sb : Ext4Superblock) (n : Nat) (b : Bytes) (i : Inode)
    (h : Inode.new sb n b = .ok i) :
    i.accessTime = timeOf (le (inodePart b) 0x8 4) (le (inodePart b) 0x8c 4)
    ∧ i.changeTime = timeOf (le (inodePart b) 0xc 4) (le (inodePart b) 0x84 4)
    ∧ i.modifiedTime = timeOf (le (inodePart b) 0x10 4) (le (inodePart b) 0x88 4)
    ∧ i.creationTime = timeOf (le (inodePart b) 0x90 4) (le (inodePart b) 0x94 4)
    ∧ i.deleteTime = (le (inodePart b) 0x14 4 : Int) * 10 ^ 9 := by
  have hs := inode_storage h
  obtain ⟨st, m⟩ := i
  simp only at hs
  subst hs
  refine ⟨?_, ?_, ?_, ?_, ?_⟩
  · rw [Inode.accessTime, C61_value, Inode.get_at (off := 0x8) (w := 4) (by decide +kernel),
      Inode.get_at (off := 0x8c) (w := 4) (by decide +kernel)]
  · rw [Inode.changeTime, C61_value, Inode.get_at (off := 0xc) (w := 4) (by decide +kernel),
      Inode.get_at (off := 0x84) (w := 4) (by decide +kernel)]
  · rw [Inode.modifiedTime, C61_value, Inode.get_at (off := 0x10) (w := 4) (by decide +kernel),
      Inode.get_at (off := 0x88) (w := 4) (by decide +kernel)]
  · rw [Inode.creationTime, C61_value, Inode.get_at (off := 0x90) (w := 4) (by decide +kernel),
      Inode.get_at (off := 0x94) (w := 4) (by decide +kernel)]
  · rw [Inode.deleteTime, Inode.get_at (off := 0x14) (w := 4) (by decide +kernel)]
    norm_num

omit [Build] in
/-- C61: every time that can be represented on disk survives the kernel's encoding and this
decoding. -/
theorem C61_round_trip (sec : Int) (nsec : Nat) (h1 : -2 ^ 31 ≤ sec) (h2 : sec < 3 * 2 ^ 32 + 2 ^ 31) :
    decodeExtraTime (encodeTime sec nsec).1 (encodeTime sec nsec).2 = sec * 10 ^ 9 + nsec := by
  rw [C61_value]
  obtain ⟨low, hlow⟩ : ∃ low : Nat, (low : Int) = sec % 2 ^ 32 := ⟨(sec % 2 ^ 32).toNat, by omega⟩
  unfold timeOf encodeTime
  simp only [← hlow, Int.toNat_natCast]
  by_cases hc : low < 2 ^ 31
  · rw [if_pos hc, if_pos (by omega)]
    generalize hk : ((sec - (low : Int)) / 2 ^ 32 % 4).toNat = k
    have h3 : (k + nsec * 4) % 4 = k := by omega
    have h4 : (k + nsec * 4) / 4 = nsec := by omega
    rw [h3, h4]
    have h5 : (low : Int) + 2 ^ 32 * (k : Int) = sec := by omega
    rw [h5]
  · rw [if_neg hc, if_neg (by omega)]
    generalize hk : ((sec - ((low : Int) - 2 ^ 32)) / 2 ^ 32 % 4).toNat = k
    have h3 : (k + nsec * 4) % 4 = k := by omega
    have h4 : (k + nsec * 4) / 4 = nsec := by omega
    rw [h3, h4]
    have h5 : (low : Int) - 2 ^ 32 + 2 ^ 32 * (k : Int) = sec := by omega
    rw [h5]

omit [Build] in
/-- The encoding is in two 32-bit words for a proper number of nanoseconds, so the round trip covers
what can be on disk. -/
theorem C61_words (sec : Int) (nsec : Nat) (h : nsec < 10 ^ 9) :
    (encodeTime sec nsec).1 < 2 ^ 32 ∧ (encodeTime sec nsec).2 < 2 ^ 32 := by
  unfold encodeTime
  simp only
  norm_num at *
  split <;> omega

omit [Build] in
/-- C61: different encodings with fewer than 10^9 nanoseconds decode to different times. -/
theorem C61_injective (low extra low' extra' : Nat) (h1 : low < 2 ^ 32) (h2 : low' < 2 ^ 32)
    (h3 : extra / 4 < 10 ^ 9) (h4 : extra' / 4 < 10 ^ 9)
    (h : decodeExtraTime low extra = decodeExtraTime low' extra') : low = low' ∧ extra = extra' := by
  rw [C61_value, C61_value] at h
  unfold timeOf at h
  have hsplit : ∀ (a a' : Int) (n n' : Nat), n < 10 ^ 9 → n' < 10 ^ 9 →
      a * 10 ^ 9 + (n : Int) = a' * 10 ^ 9 + (n' : Int) → a = a' ∧ n = n' := by
    intro a a' n n' hn hn' he
    omega
  obtain ⟨h5, h6⟩ := hsplit _ _ _ _ h3 h4 h
  split at h5 <;> split at h5 <;> omega

/-- C61: with too many nanoseconds, two encodings give the same time: the bound is
needed. -/
example : decodeExtraTime 1 0 = decodeExtraTime 0 (10 ^ 9 * 4) := by decide +kernel

example : decodeExtraTime (encodeTime 1600000000 123456789).1 (encodeTime 1600000000 123456789).2
    = 1600000000123456789 ∧ (encodeTime 5000000000 1) = (705032704, 5)
    ∧ encodeTime (-1) 0 = (4294967295, 0) := by decide +kernel

omit [Build] in
/-- C62: joining the two parts of a mode gives the mode back. -/
theorem C62_split_join (m : FileMode) (h : m.bits < 2 ^ 16) :
    FileMode.fromFileTypeAndPermissions m.fileType m.permissions = m := by
  obtain ⟨v⟩ := m
  simp only at h
  have ht : ∀ k, k < 16 → (FileType.ofNat k).toNat = k := by decide
  have hk : v >>> 12 < 16 := by rw [Nat.shiftRight_eq_div_pow]; omega
  unfold FileMode.fromFileTypeAndPermissions FileMode.fileType FileMode.permissions
  simp only
  rw [Nat.mod_eq_of_lt (show v >>> 12 < 256 by omega), ht _ hk]
  have ha : v &&& 0x0fff = v % 2 ^ 12 := Nat.and_two_pow_sub_one_eq_mod v 12
  have hb : (v &&& 0x0fff) &&& 0x0fff = v % 2 ^ 12 := by
    rw [ha, Nat.and_two_pow_sub_one_eq_mod (v % 2 ^ 12) 12, Nat.mod_mod]
  rw [hb, Nat.shiftLeft_eq, Nat.shiftRight_eq_div_pow]
  congr 1
  rw [Nat.mod_eq_of_lt (by omega), Nat.mul_comm, ← Nat.two_pow_add_eq_or_of_lt (by omega)]
  omega

omit [Build] in
/-- C62: splitting a mode that was joined from a known type (or any other four-bit type) and
permissions gives them back. -/
theorem C62_join_split (t : Nat) (ht : t < 16) (p : Nat) (hp : p < 2 ^ 12) :
    (FileMode.fromFileTypeAndPermissions (.ofNat t) p).fileType = .ofNat t
    ∧ (FileMode.fromFileTypeAndPermissions (.ofNat t) p).permissions = p
    ∧ (FileMode.fromFileTypeAndPermissions (.ofNat t) p).bits = t * 2 ^ 12 + p := by
  have htn : ∀ k, k < 16 → (FileType.ofNat k).toNat = k := by decide
  have hbits : (FileMode.fromFileTypeAndPermissions (.ofNat t) p).bits = t * 2 ^ 12 + p := by
    unfold FileMode.fromFileTypeAndPermissions
    simp only
    rw [htn t ht, Nat.and_two_pow_sub_one_eq_mod p 12, Nat.mod_eq_of_lt hp, Nat.shiftLeft_eq,
      Nat.mod_eq_of_lt (by omega), Nat.mul_comm, ← Nat.two_pow_add_eq_or_of_lt hp]
  refine ⟨?_, ?_, hbits⟩
  · unfold FileMode.fileType
    rw [hbits, Nat.shiftRight_eq_div_pow]
    congr 1
    omega
  · unfold FileMode.permissions
    rw [hbits, Nat.and_two_pow_sub_one_eq_mod (t * 2 ^ 12 + p) 12]
    omega

omit [Build] in
/-- C62: the types are those of the kernel's `S_IFMT` field (bits 12 to 15 of the mode). -/
theorem C62_types (m : FileMode) (h : m.bits < 2 ^ 16) :
    (m.fileType = .socket ↔ m.bits / 0o10000 = 0o14)
    ∧ (m.fileType = .symbolicLink ↔ m.bits / 0o10000 = 0o12)
    ∧ (m.fileType = .regularFile ↔ m.bits / 0o10000 = 0o10)
    ∧ (m.fileType = .blockDevice ↔ m.bits / 0o10000 = 0o06)
    ∧ (m.fileType = .directory ↔ m.bits / 0o10000 = 0o04)
    ∧ (m.fileType = .characterDevice ↔ m.bits / 0o10000 = 0o02)
    ∧ (m.fileType = .fifo ↔ m.bits / 0o10000 = 0o01)
    ∧ m.permissions = m.bits % 0o10000 := by
  have hk : m.bits / 4096 < 16 := by omega
  have hf : m.fileType = .ofNat (m.bits / 4096) := by
    unfold FileMode.fileType
    rw [Nat.shiftRight_eq_div_pow]
    congr 1
    omega
  have ht : ∀ k, k < 16 → (FileType.ofNat k = .socket ↔ k = 12)
      ∧ (FileType.ofNat k = .symbolicLink ↔ k = 10)
      ∧ (FileType.ofNat k = .regularFile ↔ k = 8)
      ∧ (FileType.ofNat k = .blockDevice ↔ k = 6)
      ∧ (FileType.ofNat k = .directory ↔ k = 4)
      ∧ (FileType.ofNat k = .characterDevice ↔ k = 2)
      ∧ (FileType.ofNat k = .fifo ↔ k = 1) := by decide
  obtain ⟨h1, h2, h3, h4, h5, h6, h7⟩ := ht _ hk
  rw [hf]
  exact ⟨h1, h2, h3, h4, h5, h6, h7, Nat.and_two_pow_sub_one_eq_mod m.bits 12⟩

omit [Build] in
/-- C62: the inode file type and the directory entry file type convert to each other. -/
theorem C62_convert (t : FileType) (u : DirFileType) :
    FileType.ofDirFileType (.ofFileType t) = t ∧ DirFileType.ofFileType (.ofDirFileType u) = u := by
  constructor
  · cases t <;> rfl
  · cases u <;> rfl

omit [Build] in
/-- C62: the seven directory entry types (kernel: `EXT4_FT_REG_FILE` 1, `DIR` 2, `CHRDEV` 3,
`BLKDEV` 4, `FIFO` 5, `SOCK` 6, `SYMLINK` 7) convert to the seven inode types with the mode numbers
of the kernel, and no two of them to the same. -/
theorem C62_numbers : (List.range 9).map (fun n => (FileType.ofDirFileType (.ofNat n)).toNat)
      = [0, 8, 4, 2, 6, 1, 12, 10, 8]
    ∧ (List.range 9).map (fun n => FileType.ofDirFileType (.ofNat n))
      = [.unknown 0, .regularFile, .directory, .characterDevice, .blockDevice, .fifo, .socket,
         .symbolicLink, .unknown 8] := by
  decide

omit [Build] in
/-- A limit of C62: a type made from a number of sixteen or more does not survive joining. -/
theorem C62_wide_type_lost :
    (FileMode.fromFileTypeAndPermissions (.ofNat 24) 0).fileType ≠ .ofNat 24 := by decide

set_option maxRecDepth 100000 in
/-- The repository's test inode: the model gives the values its unit test expects. -/
example : ∃ i, Inode.new ⟨Fixture.rootInodeSb⟩ 2 Fixture.rootInode = .ok i ∧ i.fileMode = ⟨0x41ed⟩
    ∧ i.fileType = .directory ∧ i.fileSizeBytes = 4096 ∧ i.checksum = 0xda6e700e
    ∧ i.flags = 0x80000 ∧ i.metadataChecksumSeed.isSome := by
  have h : ∀ r : Res Inode, (match r with
      | .ok i => decide (i.fileMode = ⟨0x41ed⟩ ∧ i.fileType = .directory ∧ i.fileSizeBytes = 4096
          ∧ i.checksum = 0xda6e700e ∧ i.flags = 0x80000 ∧ i.metadataChecksumSeed.isSome)
      | _ => false) = true → ∃ i, r = .ok i ∧ i.fileMode = ⟨0x41ed⟩
        ∧ i.fileType = .directory ∧ i.fileSizeBytes = 4096 ∧ i.checksum = 0xda6e700e
        ∧ i.flags = 0x80000 ∧ i.metadataChecksumSeed.isSome := by
    intro r hr
    rcases r with i | e | _
    · exact ⟨i, rfl, by simpa using hr⟩
    · cases hr
    · cases hr
  exact h _ (by decide +kernel)

end MdRecover
