import Verif.Lemmas.Ext4Superblock
import Verif.Props.Wide
import Verif.Props.Crc
import Verif.Fixture.Ext4

/- C54, C55, C56: the ext4 superblock. -/

namespace MdRecover
variable [Build]

open MdSpec
open Ext4Superblock (get_at raw_at)

/-- C54: if a superblock is valid and has a CRC32C checksum, then any change inside 32
consecutive bits of its 1024 bytes (checksummed area, stored checksum, or both) makes it invalid,
unless it turns the checksum type into "none". -/
theorem C54_burst (a b : Bytes) (hl : a.length = 1024) (hv : (Ext4Superblock.mk a).valid = .ok true)
    (ht : le a 0x175 1 = 1) (k : Nat) (hd : DifferInBurst k a b) (hne : a ≠ b)
    (ht' : le b 0x175 1 ≠ 0) : (Ext4Superblock.mk b).valid = .ok false := by
  obtain ⟨v, hb⟩ := (Ext4Superblock.mk b).valid_some
  cases v with
  | false => exact hb
  | true =>
    have h1 := Ext4Superblock.crc_zero hl ((Ext4Superblock.valid_iff _).1 hv) (by rw [ht]; omega)
    have h2 := Ext4Superblock.crc_zero (hd.1 ▸ hl) ((Ext4Superblock.valid_iff _).1 hb) ht'
    exact absurd (h1.trans h2.symm) (burst_detected hd hne crcInitial)

/-- C54 for whole bytes: any change of up to four consecutive bytes. -/
theorem C54_four_bytes (front w v rest : Bytes) (hl : (front ++ w ++ rest).length = 1024)
    (hv : (Ext4Superblock.mk (front ++ w ++ rest)).valid = .ok true)
    (ht : le (front ++ w ++ rest) 0x175 1 = 1) (hw : w.length ≤ 4) (hwv : w.length = v.length)
    (hne : w ≠ v) (ht' : le (front ++ v ++ rest) 0x175 1 ≠ 0) :
    (Ext4Superblock.mk (front ++ v ++ rest)).valid = .ok false := by
  obtain ⟨x, hb⟩ := (Ext4Superblock.mk (front ++ v ++ rest)).valid_some
  cases x with
  | false => exact hb
  | true =>
    have hl' : (front ++ v ++ rest).length = 1024 := by
      rw [← hl]; simp [hwv]
    have h1 := Ext4Superblock.crc_zero hl ((Ext4Superblock.valid_iff _).1 hv) (by rw [ht]; omega)
    have h2 := Ext4Superblock.crc_zero hl' ((Ext4Superblock.valid_iff _).1 hb) ht'
    exact absurd (h1.trans h2.symm) (C53_four_bytes crcInitial front rest w v hw hwv hne)

/-- C54: a superblock returned by reading is valid, whatever the source does. -/
theorem C54_read_valid {S : Type} (reader : Bytes → SM S (Nat × Bytes)) (s s' : S)
    (sb : Ext4Superblock) (h : Ext4Superblock.read reader s = (s', .ok sb)) :
    sb.valid = .ok true := by
  unfold Ext4Superblock.read at h
  rw [SM.bind_apply] at h
  rcases hr : readExact reader (zeros ext4SbLayout.size) s with ⟨s1, r⟩
  rw [hr] at h
  cases r with
  | err e => simp at h
  | panic => simp at h
  | ok buf =>
    obtain ⟨v, hv⟩ := (Ext4Superblock.mk buf).valid_some
    simp only [SM.bind_apply, SM.lift_apply, hv] at h
    cases v with
    | false => simp at h
    | true =>
      simp only [if_true, SM.pure_apply, Prod.mk.injEq, Res.ok.injEq] at h
      rw [← h.2]; exact hv

set_option maxRecDepth 10000 in
/-- C54 is about real superblocks: this one is valid and has a CRC32C checksum. -/
example : Fixture.ext4Sb1.length = 1024 ∧ (Ext4Superblock.mk Fixture.ext4Sb1).valid = .ok true
    ∧ le Fixture.ext4Sb1 0x175 1 = 1 := by
  refine ⟨by decide +kernel, by decide +kernel +revert, by decide +kernel⟩

set_option maxRecDepth 10000 in
/-- C54: the exception is real.  Clearing the checksum type of that superblock, and changing its
block count as well, leaves it valid. -/
theorem C54_type_cleared : ∃ a b : Bytes, (Ext4Superblock.mk a).valid = .ok true
    ∧ (Ext4Superblock.mk b).valid = .ok true
    ∧ (Ext4Superblock.mk a).checksum = .crc32c 0x42350b17
    ∧ (∀ i, i ≠ 4 → i ≠ 0x175 → a[i]? = b[i]?)
    ∧ (Ext4Superblock.mk a).blocksCount ≠ (Ext4Superblock.mk b).blocksCount := by
  refine ⟨Fixture.ext4Sb1, (Fixture.ext4Sb1.set 0x175 0).set 4 1, by decide +kernel +revert,
    by decide +kernel +revert, by decide +kernel, fun i h4 h5 => ?_, by decide +kernel⟩
  rw [List.getElem?_set_ne (by omega), List.getElem?_set_ne (by omega)]

/-- C55: checking a superblock never panics and never returns an error. -/
theorem C55_total (s : Ext4Superblock) : s.valid = .ok true ∨ s.valid = .ok false := by
  obtain ⟨v, h⟩ := s.valid_some
  cases v
  · exact .inr h
  · exact .inl h

/-- C55: a superblock is valid exactly if it satisfies the documented conditions. -/
theorem C55_valid_iff (s : Ext4Superblock) : s.valid = .ok true ↔ Ext4SbOk s.bytes :=
  s.valid_iff

/-- C55: the sizes of a valid superblock are powers of two that fit in 64 bits, and computing
them does not panic. -/
theorem C55_sizes (s : Ext4Superblock) (hv : s.valid = .ok true) :
    s.blockSizeBytes = .ok (1024 * 2 ^ le s.bytes 0x18 4)
    ∧ 1024 * 2 ^ le s.bytes 0x18 4 ≤ 2 ^ 62
    ∧ s.clusterSizeBlocks = .ok (1024 * 2 ^ le s.bytes 0x1c 4)
    ∧ 1024 * 2 ^ le s.bytes 0x1c 4 ≤ 2 ^ 62
    ∧ s.groupsPerFlex = 2 ^ le s.bytes 0x174 1 ∧ s.groupsPerFlex ≤ 2 ^ 62 := by
  have h := s.valid_iff.1 hv
  have hb := h.block
  have hc := h.cluster
  have hf := h.flex
  have e1 := get_at (f := .logBlockSize) (off := 0x18) (w := 4) (by decide +kernel) s
  have e2 := get_at (f := .logClusterSize) (off := 0x1c) (w := 4) (by decide +kernel) s
  have e3 := get_at (f := .logGroupsPerFlex) (off := 0x174) (w := 1) (by decide +kernel) s
  have p : ∀ n, 1024 * 2 ^ n = 2 ^ (10 + n) := by intro n; rw [pow_add]; rfl
  have eg : s.groupsPerFlex = 2 ^ le s.bytes 0x174 1 := by
    rw [Ext4Superblock.groupsPerFlex, e3, Ext4Superblock.oneShl64_eq (by omega)]
  refine ⟨?_, ?_, ?_, ?_, eg, ?_⟩
  · rw [p, ← e1]; exact s.blockSizeBytes_of (by omega)
  · rw [p]; exact Nat.pow_le_pow_right (by omega) (by omega)
  · rw [p, ← e2]; exact s.clusterSizeBlocks_of (by omega)
  · rw [p]; exact Nat.pow_le_pow_right (by omega) (by omega)
  · rw [eg]; exact Nat.pow_le_pow_right (by omega) (by omega)

set_option maxRecDepth 10000 in
/-- C55: both answers occur; also an ext2 superblock without checksum is accepted. -/
example : Ext4SbOk Fixture.ext4Sb1 ∧ Ext4SbOk Fixture.ext4Ext2 ∧ ¬ Ext4SbOk (zeros 1024) := by
  refine ⟨(Ext4Superblock.valid_iff _).1 (by decide +kernel +revert),
    (Ext4Superblock.valid_iff _).1 (by decide +kernel +revert), fun h => ?_⟩
  exact absurd h.magic (by decide +kernel)

omit [Build] in
/-- C56: every field lies inside the 1024 bytes that are read, and different fields do not
overlap. -/
theorem C56_fields_inside (f g : Ext4SbField) :
    ext4SbLayout.offset f + ext4SbLayout.width f ≤ 1024 ∧
    (f ≠ g → ext4SbLayout.offset f + ext4SbLayout.width f ≤ ext4SbLayout.offset g
      ∨ ext4SbLayout.offset g + ext4SbLayout.width g ≤ ext4SbLayout.offset f) := by
  have hm : ∀ f : Ext4SbField, f ∈ ext4SbLayout.map Prod.fst := by
    intro f; cases f <;> decide +kernel
  have hs : ext4SbLayout.size = 1024 := by decide +kernel
  exact ⟨hs ▸ Layout.offset_width_le_size (hm f), fun hne => Layout.disjoint (hm f) (hm g) hne⟩

omit [Build] in
/-- C56: integer fields, part 1 of 4. -/
theorem C56_integers_1 (s : Ext4Superblock) :
    s.inodesCount = le s.bytes 0x0 4
    ∧ s.freeInodesCount = le s.bytes 0x10 4
    ∧ s.blocksPerGroup = le s.bytes 0x20 4
    ∧ s.clustersPerGroup = le s.bytes 0x24 4
    ∧ s.inodesPerGroup = le s.bytes 0x28 4
    ∧ s.mountCount = le s.bytes 0x34 2
    ∧ s.maxMountCount = le s.bytes 0x36 2
    ∧ s.magic = le s.bytes 0x38 2
    ∧ s.state = le s.bytes 0x3a 2
    ∧ s.errorPolicy = .ofNat (le s.bytes 0x3c 2)
    ∧ s.minorRevisionLevel = le s.bytes 0x3e 2
    ∧ s.creatorOs = .ofNat (le s.bytes 0x48 4)
    ∧ s.revisionLevel = le s.bytes 0x4c 4
    ∧ s.defaultReservedUserId = le s.bytes 0x50 2
    ∧ s.defaultReservedGroupId = le s.bytes 0x52 2
    ∧ s.firstInode = le s.bytes 0x54 4 := by
  refine ⟨?_, ?_, ?_, ?_, ?_, ?_, ?_, ?_, ?_, ?_, ?_, ?_, ?_, ?_, ?_,
    ?_⟩
  · exact get_at (by decide +kernel) s
  · exact get_at (by decide +kernel) s
  · exact get_at (by decide +kernel) s
  · exact get_at (by decide +kernel) s
  · exact get_at (by decide +kernel) s
  · exact get_at (by decide +kernel) s
  · exact get_at (by decide +kernel) s
  · exact get_at (by decide +kernel) s
  · exact get_at (by decide +kernel) s
  · exact congrArg ErrorPolicy.ofNat (get_at (by decide +kernel) s)
  · exact get_at (by decide +kernel) s
  · exact congrArg CreatorOs.ofNat (get_at (by decide +kernel) s)
  · exact get_at (by decide +kernel) s
  · exact get_at (by decide +kernel) s
  · exact get_at (by decide +kernel) s
  · exact get_at (by decide +kernel) s

omit [Build] in
/-- C56: integer fields, part 2 of 4. -/
theorem C56_integers_2 (s : Ext4Superblock) :
    s.inodeSize = le s.bytes 0x58 2
    ∧ s.blockGroupNumber = le s.bytes 0x5a 2
    ∧ s.compatibleFeatures = le s.bytes 0x5c 4
    ∧ s.incompatibleFeatures = le s.bytes 0x60 4
    ∧ s.readOnlyCompatibleFeatures = le s.bytes 0x64 4
    ∧ s.algorithmUsageBitmap = le s.bytes 0xc8 4
    ∧ s.preallocateBlocks = le s.bytes 0xcc 1
    ∧ s.preallocateDirectoryBlocks = le s.bytes 0xcd 1
    ∧ s.reservedGdtBlocks = le s.bytes 0xce 2
    ∧ s.journalInodeNumber = le s.bytes 0xe0 4
    ∧ s.journalDeviceNumber = le s.bytes 0xe4 4
    ∧ s.lastOrphan = le s.bytes 0xe8 4
    ∧ s.defaultHashVersion = .ofNat (le s.bytes 0xfc 1)
    ∧ s.journalBackupType = le s.bytes 0xfd 1
    ∧ s.groupDescriptorSize = le s.bytes 0xfe 2
    ∧ s.defaultMountOptions = le s.bytes 0x100 4 := by
  refine ⟨?_, ?_, ?_, ?_, ?_, ?_, ?_, ?_, ?_, ?_, ?_, ?_, ?_, ?_, ?_,
    ?_⟩
  · exact get_at (by decide +kernel) s
  · exact get_at (by decide +kernel) s
  · exact get_at (by decide +kernel) s
  · exact get_at (by decide +kernel) s
  · exact get_at (by decide +kernel) s
  · exact get_at (by decide +kernel) s
  · exact get_at (by decide +kernel) s
  · exact get_at (by decide +kernel) s
  · exact get_at (by decide +kernel) s
  · exact get_at (by decide +kernel) s
  · exact get_at (by decide +kernel) s
  · exact get_at (by decide +kernel) s
  · exact congrArg HashVersion.ofNat (get_at (by decide +kernel) s)
  · exact get_at (by decide +kernel) s
  · exact get_at (by decide +kernel) s
  · exact get_at (by decide +kernel) s

omit [Build] in
/-- C56: integer fields, part 3 of 4. -/
theorem C56_integers_3 (s : Ext4Superblock) :
    s.firstMetaBlockGroup = le s.bytes 0x104 4
    ∧ s.minimumExtraInodeSize = le s.bytes 0x15c 2
    ∧ s.wantedExtraInodeSize = le s.bytes 0x15e 2
    ∧ s.flags = le s.bytes 0x160 4
    ∧ s.raidStride = le s.bytes 0x164 2
    ∧ s.multiMountPreventionInterval = le s.bytes 0x166 2
    ∧ s.multiMountPreventionBlock = le s.bytes 0x168 8
    ∧ s.raidStripeWidth = le s.bytes 0x170 4
    ∧ s.kbytesWritten = le s.bytes 0x178 8
    ∧ s.snapshotInodeNumber = le s.bytes 0x180 4
    ∧ s.snapshotId = le s.bytes 0x184 4
    ∧ s.snapshotReservedBlocksCount = le s.bytes 0x188 8
    ∧ s.snapshotListInodeNumber = le s.bytes 0x190 4
    ∧ s.errorCount = le s.bytes 0x194 4
    ∧ s.firstErrorInode = le s.bytes 0x19c 4
    ∧ s.firstErrorBlock = le s.bytes 0x1a0 8 := by
  refine ⟨?_, ?_, ?_, ?_, ?_, ?_, ?_, ?_, ?_, ?_, ?_, ?_, ?_, ?_, ?_,
    ?_⟩
  · exact get_at (by decide +kernel) s
  · exact get_at (by decide +kernel) s
  · exact get_at (by decide +kernel) s
  · exact get_at (by decide +kernel) s
  · exact get_at (by decide +kernel) s
  · exact get_at (by decide +kernel) s
  · exact get_at (by decide +kernel) s
  · exact get_at (by decide +kernel) s
  · exact get_at (by decide +kernel) s
  · exact get_at (by decide +kernel) s
  · exact get_at (by decide +kernel) s
  · exact get_at (by decide +kernel) s
  · exact get_at (by decide +kernel) s
  · exact get_at (by decide +kernel) s
  · exact get_at (by decide +kernel) s
  · exact get_at (by decide +kernel) s

omit [Build] in
/-- C56: integer fields, part 4 of 4. -/
theorem C56_integers_4 (s : Ext4Superblock) :
    s.firstErrorLine = le s.bytes 0x1c8 4
    ∧ s.lastErrorInode = le s.bytes 0x1d0 4
    ∧ s.lastErrorLine = le s.bytes 0x1d4 4
    ∧ s.lastErrorBlock = le s.bytes 0x1d8 8
    ∧ s.userQuotaInodeNumber = le s.bytes 0x240 4
    ∧ s.groupQuotaInodeNumber = le s.bytes 0x244 4
    ∧ s.overheadBlocks = le s.bytes 0x248 4
    ∧ s.lostAndFoundInodeNumber = le s.bytes 0x268 4
    ∧ s.projectQuotaInodeNumber = le s.bytes 0x26c 4
    ∧ s.filenameCharacterEncoding = le s.bytes 0x27c 2
    ∧ s.filenameCharacterEncodingFlags = le s.bytes 0x27e 2
    ∧ s.orphanFileInodeNumber = le s.bytes 0x280 4
    ∧ s.firstDataBlock = le s.bytes 0x14 4 := by
  refine ⟨?_, ?_, ?_, ?_, ?_, ?_, ?_, ?_, ?_, ?_, ?_, ?_, ?_⟩
  · exact get_at (by decide +kernel) s
  · exact get_at (by decide +kernel) s
  · exact get_at (by decide +kernel) s
  · exact get_at (by decide +kernel) s
  · exact get_at (by decide +kernel) s
  · exact get_at (by decide +kernel) s
  · exact get_at (by decide +kernel) s
  · exact get_at (by decide +kernel) s
  · exact get_at (by decide +kernel) s
  · exact get_at (by decide +kernel) s
  · exact get_at (by decide +kernel) s
  · exact get_at (by decide +kernel) s
  · exact get_at (by decide +kernel) s

omit [Build] in
/-- C56: counts of blocks combine the low and the high word. -/
theorem C56_wide (s : Ext4Superblock) :
    s.blocksCount = le s.bytes 0x4 4 + le s.bytes 0x150 4 * 2 ^ 32
    ∧ s.reservedBlocksCount = le s.bytes 0x8 4 + le s.bytes 0x154 4 * 2 ^ 32
    ∧ s.freeBlocksCount = le s.bytes 0xc 4 + le s.bytes 0x158 4 * 2 ^ 32 := by
  have h : ∀ {f g : Ext4SbField} {x y : Nat},
      (ext4SbLayout.offset f, ext4SbLayout.width f) = (x, 4) →
      (ext4SbLayout.offset g, ext4SbLayout.width g) = (y, 4) →
      fromLowHigh 32 (s.get f) (s.get g) = le s.bytes x 4 + le s.bytes y 4 * 2 ^ 32 := by
    intro f g x y hf hg
    rw [get_at hf, get_at hg]
    exact (C51_value 32 _ _ (le_lt _ _ _) (le_lt _ _ _)).1
  exact ⟨h (by decide +kernel) (by decide +kernel), h (by decide +kernel) (by decide +kernel),
    h (by decide +kernel) (by decide +kernel)⟩

omit [Build] in
/-- C56: times in seconds since 1970 combine a low word and a high byte; no time panics.
`mount_time`, `creation_time` and the times of errors are absent if zero. -/
theorem C56_times (s : Ext4Superblock) :
    let time (low high : Nat) := le s.bytes low 4 + le s.bytes high 1 * 2 ^ 32
    let present (t : Nat) : Res (Option Nat) := .ok (if t = 0 then none else some t)
    s.writeTime = .ok (time 0x30 0x274)
    ∧ s.lastCheckTime = .ok (time 0x40 0x277)
    ∧ s.mountTime = present (time 0x2c 0x275)
    ∧ s.creationTime = present (time 0x108 0x276)
    ∧ s.firstErrorTime = present (time 0x198 0x278)
    ∧ s.lastErrorTime = present (time 0x1cc 0x279) := by
  intro time present
  have h : ∀ {f g : Ext4SbField} {x y : Nat},
      (ext4SbLayout.offset f, ext4SbLayout.width f) = (x, 4) →
      (ext4SbLayout.offset g, ext4SbLayout.width g) = (y, 1) →
      systemTimeFromLowHigh (s.get f) (s.get g) = .ok (time x y) := by
    intro f g x y hf hg
    rw [get_at hf, get_at hg]
    have h1 : le s.bytes x 4 < 2 ^ 32 := le_lt _ _ _
    have h2 : le s.bytes y 1 < 256 := le_lt _ _ _
    have h3 := (C51_value 32 (le s.bytes x 4) (le s.bytes y 1) h1 (by omega)).1
    unfold systemTimeFromLowHigh
    rw [h3, if_pos (by omega)]
  have h' : ∀ {f g : Ext4SbField} {x y : Nat},
      (ext4SbLayout.offset f, ext4SbLayout.width f) = (x, 4) →
      (ext4SbLayout.offset g, ext4SbLayout.width g) = (y, 1) →
      Ext4Superblock.nonEpoch (systemTimeFromLowHigh (s.get f) (s.get g)) = present (time x y) := by
    intro f g x y hf hg
    rw [h hf hg]; rfl
  exact ⟨h (by decide +kernel) (by decide +kernel), h (by decide +kernel) (by decide +kernel),
    h' (by decide +kernel) (by decide +kernel), h' (by decide +kernel) (by decide +kernel),
    h' (by decide +kernel) (by decide +kernel), h' (by decide +kernel) (by decide +kernel)⟩

omit [Build] in
/-- C56: byte-string fields. -/
theorem C56_bytes (s : Ext4Superblock) :
    s.uuid = (s.bytes.drop 0x68).take 16
    ∧ s.journalUuid = (s.bytes.drop 0xd0).take 16
    ∧ s.hashSeed = (s.bytes.drop 0xec).take 16
    ∧ s.journalBlocks = (s.bytes.drop 0x10c).take 68
    ∧ s.encryptionPasswordSalt = (s.bytes.drop 0x258).take 16 := by
  exact ⟨raw_at (by decide +kernel) s, raw_at (by decide +kernel) s, raw_at (by decide +kernel) s,
    raw_at (by decide +kernel) s, raw_at (by decide +kernel) s⟩

omit [Build] in
/-- C56: text fields end before their first zero byte; those for which the empty text means
"absent" are `none` exactly if the first byte is zero (or missing). -/
theorem C56_texts (s : Ext4Superblock) :
    let text (off w : Nat) := ((s.bytes.drop off).take w).takeWhile (· != 0)
    let present (t : Bytes) : Option Ext4String := if t = [] then none else some ⟨t⟩
    s.mountOptions = ⟨text 0x200 64⟩
    ∧ s.volumeName = present (text 0x78 16)
    ∧ s.lastMountedPath = present (text 0x88 64)
    ∧ s.firstErrorFunctionName = present (text 0x1a8 32)
    ∧ s.lastErrorFunctionName = present (text 0x1e0 32) := by
  intro text present
  have h : ∀ {f : Ext4SbField} {x w : Nat},
      (ext4SbLayout.offset f, ext4SbLayout.width f) = (x, w) →
      (Ext4String.fromNullTerminated (s.raw f)).nonEmpty = present (text x w) := by
    intro f x w hf
    rw [raw_at hf]
    simp only [Ext4String.nonEmpty, Ext4String.isEmpty, Ext4String.len,
      Ext4String.fromNullTerminated, decide_eq_true_eq, List.length_eq_zero_iff]
    rfl
  refine ⟨?_, h (by decide +kernel), h (by decide +kernel), h (by decide +kernel),
    h (by decide +kernel)⟩
  rw [Ext4Superblock.mountOptions, raw_at (off := 0x200) (w := 64) (by decide +kernel)]; rfl

omit [Build] in
/-- C56: the remaining accessors.  The seed of the metadata checksums is `s_checksum_seed` if the
feature bit 13 of `s_feature_incompat` is set, else the checksum of the UUID if bit 10 of
`s_feature_ro_compat` is set, else zero. -/
theorem C56_others (s : Ext4Superblock) :
    s.checkInterval = (if le s.bytes 0x44 4 = 0 then none else some (le s.bytes 0x44 4))
    ∧ s.superblockBackupBlockGroups = (le s.bytes 0x24c 4, le s.bytes 0x250 4)
    ∧ s.encryptionAlgorithms
        = (((s.bytes.drop 0x254).take 4).filter (· != 0)).map (fun b => .ofNat b.toNat)
    ∧ (le s.bytes 0x60 4 / 2 ^ 13 % 2 = 1 → s.checksumSeed = le s.bytes 0x270 4)
    ∧ (¬ le s.bytes 0x60 4 / 2 ^ 13 % 2 = 1 → le s.bytes 0x64 4 / 2 ^ 10 % 2 = 1 →
        IsCrc32c (BitVec.allOnes 32) ((s.bytes.drop 0x68).take 16)
          (BitVec.ofNat 32 s.checksumSeed))
    ∧ (¬ le s.bytes 0x60 4 / 2 ^ 13 % 2 = 1 → ¬ le s.bytes 0x64 4 / 2 ^ 10 % 2 = 1 →
        s.checksumSeed = 0) := by
  have e1 := get_at (f := .checkInterval) (off := 0x44) (w := 4) (by decide +kernel) s
  have e2 := get_at (f := .superblockBackupBlockGroup0) (off := 0x24c) (w := 4) (by decide +kernel) s
  have e3 := get_at (f := .superblockBackupBlockGroup1) (off := 0x250) (w := 4) (by decide +kernel) s
  have e4 := raw_at (f := .encryptionAlgorithms) (off := 0x254) (w := 4) (by decide +kernel) s
  have e5 := get_at (f := .incompatibleFeatures) (off := 0x60) (w := 4) (by decide +kernel) s
  have e6 := get_at (f := .readOnlyCompatibleFeatures) (off := 0x64) (w := 4) (by decide +kernel) s
  have e7 := get_at (f := .checksumSeed) (off := 0x270) (w := 4) (by decide +kernel) s
  have e8 := raw_at (f := .uuid) (off := 0x68) (w := 16) (by decide +kernel) s
  have seed : s.checksumSeed = if le s.bytes 0x60 4 / 2 ^ 13 % 2 = 1 then le s.bytes 0x270 4
      else if le s.bytes 0x64 4 / 2 ^ 10 % 2 = 1 then
        (ext4Crc32c crcInitial ((s.bytes.drop 0x68).take 16)).toNat else 0 := by
    simp only [Ext4Superblock.checksumSeed, Ext4Superblock.incompatibleFeatures,
      Ext4Superblock.readOnlyCompatibleFeatures, hasBit_iff, e5, e6, e7, e8, decide_eq_true_eq]
  refine ⟨?_, ?_, ?_, ?_, ?_, ?_⟩
  · simp only [Ext4Superblock.checkInterval, e1]
  · simp only [Ext4Superblock.superblockBackupBlockGroups, e2, e3]
  · simp only [Ext4Superblock.encryptionAlgorithms, e4, List.filter_map]
    congr 1
    apply List.filter_congr
    intro b _
    have : ∀ n : Nat, (EncryptionAlgorithm.ofNat n != .invalid) = (n != 0) := by
      intro n
      rcases n with _ | _ | _ | _ | n <;> simp [EncryptionAlgorithm.ofNat]
    simp only [Function.comp, this]
    rw [Bool.eq_iff_iff]
    simp only [bne_iff_ne, ne_eq]
    rw [← UInt8.toNat_inj]; rfl
  · intro h; rw [seed, if_pos h]
  · intro h1 h2
    have h3 : s.checksumSeed < U32 := by
      rw [seed, if_neg h1, if_pos h2]; exact (ext4Crc32c _ _).isLt
    apply (Ext4Superblock.crc_eq_iff h3).1
    rw [seed, if_neg h1, if_pos h2]
  · intro h1 h2; rw [seed, if_neg h1, if_neg h2]

set_option maxRecDepth 10000 in
/-- C56 on a real superblock. -/
example : (Ext4Superblock.mk Fixture.ext4Sb1).blocksCount = 128
    ∧ (Ext4Superblock.mk Fixture.ext4Sb1).inodesCount = 64
    ∧ (Ext4Superblock.mk Fixture.ext4Sb1).inodeSize = 256
    ∧ (Ext4Superblock.mk Fixture.ext4Sb1).writeTime = .ok 1731941452
    ∧ (Ext4Superblock.mk Fixture.ext4Sb1).mountTime = .ok none := by
  decide +kernel

end MdRecover
