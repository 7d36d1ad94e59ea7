import Verif.Lemmas.Basic
import Verif.Model.Ext4Superblock
import Verif.Spec.Ext4Superblock
import Verif.Lemmas.Superblock
import Verif.Lemmas.Crc

namespace MdRecover
variable [Build]
open MdSpec

omit [Build] in
theorem leNat_slice_lt (b : Bytes) (off w : Nat) : leNat (slice b off w) < 256 ^ w := by
  have h := leNat_lt (slice b off w)
  have h2 : (slice b off w).length ≤ w := by rw [slice_length]; omega
  exact Nat.lt_of_lt_of_le h (Nat.pow_le_pow_right (by omega) h2)

omit [Build] in
theorem le_lt (b : Bytes) (off w : Nat) : le b off w < 256 ^ w := leNat_slice_lt b off w

omit [Build] in
theorem crcUpdate_low (c : BitVec 32) : crcUpdate c (UInt8.ofNat (c.toNat % 256)) = c >>> 8 := by
  have h0 : crcTable 0#8 = 0#32 := by decide +kernel
  have h : (c ^^^ (UInt8.ofNat (c.toNat % 256)).toBitVec.setWidth 32).setWidth 8 = 0#8 := by
    have h1 : (UInt8.ofNat (c.toNat % 256)).toBitVec = c.setWidth 8 := by
      apply BitVec.eq_of_toNat_eq
      simp
    rw [h1]
    apply BitVec.eq_of_getLsbD_eq
    intro i hi
    simp only [BitVec.getLsbD_setWidth, BitVec.getLsbD_xor, BitVec.getLsbD_zero]
    have : i < 32 := by omega
    simp [hi, this]
  rw [crcUpdate, h, h0, BitVec.zero_xor]

omit [Build] in
/-- A checksum run over its own little-endian bytes gives zero. -/
theorem ext4Crc32c_self (c : BitVec 32) : ext4Crc32c c (leBytes 4 c.toNat) = 0#32 := by
  have hs : ∀ d : BitVec 32, (d >>> 8).toNat = d.toNat / 256 := by
    intro d; simp [BitVec.toNat_ushiftRight, Nat.shiftRight_eq_div_pow]
  simp only [ext4Crc32c, leBytes, List.foldl_cons, List.foldl_nil]
  rw [crcUpdate_low, ← hs, crcUpdate_low, ← hs, crcUpdate_low, ← hs, crcUpdate_low]
  apply BitVec.eq_of_toNat_eq
  have := c.isLt
  simp only [hs, BitVec.toNat_zero]
  omega

namespace Ext4Superblock

omit [Build] in
theorem get_eq (s : Ext4Superblock) (f : Ext4SbField) :
    s.get f = le s.bytes (ext4SbLayout.offset f) (ext4SbLayout.width f) := rfl

omit [Build] in
theorem get_at {f : Ext4SbField} {off w : Nat}
    (h : (ext4SbLayout.offset f, ext4SbLayout.width f) = (off, w)) (s : Ext4Superblock) :
    s.get f = le s.bytes off w := by
  rw [get_eq, (Prod.mk.inj h).1, (Prod.mk.inj h).2]

omit [Build] in
theorem raw_at {f : Ext4SbField} {off w : Nat}
    (h : (ext4SbLayout.offset f, ext4SbLayout.width f) = (off, w)) (s : Ext4Superblock) :
    s.raw f = (s.bytes.drop off).take w := by
  unfold raw Layout.bytes
  rw [(Prod.mk.inj h).1, (Prod.mk.inj h).2]; rfl

omit [Build] in
theorem oneShl64_eq {n : Nat} (h : n < 64) : oneShl64 n = 2 ^ n := by
  simp [oneShl64, h, Nat.shiftLeft_eq]

theorem blockSizeBytes_of (s : Ext4Superblock) (h : s.get .logBlockSize < 53) :
    s.blockSizeBytes = .ok (2 ^ (10 + s.get .logBlockSize)) := by
  simp only [blockSizeBytes, add32]
  rw [if_pos (by omega)]
  simp only [Res.bind_ok, Res.pure_eq]
  rw [oneShl64_eq (by omega)]

theorem clusterSizeBlocks_of (s : Ext4Superblock) (h : s.get .logClusterSize < 53) :
    s.clusterSizeBlocks = .ok (2 ^ (10 + s.get .logClusterSize)) := by
  simp only [clusterSizeBlocks, add32]
  rw [if_pos (by omega)]
  simp only [Res.bind_ok, Res.pure_eq]
  rw [oneShl64_eq (by omega)]

/-- The value of `valid_cluster_size` given that `valid_block_size` holds. -/
theorem validClusterSize_of (s : Ext4Superblock) (h : s.get .logBlockSize < 53) :
    s.validClusterSize = .ok (decide (s.get .logClusterSize < 53 ∧
      (s.bigalloc = false → s.get .logClusterSize = s.get .logBlockSize))) := by
  unfold validClusterSize
  split
  · next hc =>
    split
    · next hb => simp [hc, hb]
    · next hb =>
      rw [clusterSizeBlocks_of s hc, blockSizeBytes_of s h]
      simp only [Res.bind_ok, Res.pure_eq]
      congr 1
      have : (2 ^ (10 + s.get .logClusterSize) = 2 ^ (10 + s.get .logBlockSize))
          ↔ s.get .logClusterSize = s.get .logBlockSize := by
        rw [Nat.pow_right_injective (le_refl 2) |>.eq_iff]; omega
      simp [hc, hb, beq_eq_decide, this]
  · next hc => simp [hc]

theorem valid_some (s : Ext4Superblock) : ∃ v, s.valid = .ok v := by
  unfold valid
  split
  · next h =>
    simp only [Bool.and_eq_true, validBlockSize, decide_eq_true_eq] at h
    rw [validClusterSize_of s h.2]
    exact ⟨_, rfl⟩
  · exact ⟨_, rfl⟩

omit [Build] in
theorem bigalloc_iff (s : Ext4Superblock) :
    s.bigalloc = true ↔ s.get .readOnlyCompatibleFeatures / 2 ^ 9 % 2 = 1 := by
  simp only [bigalloc, hasBit_iff, readOnlyCompatibleFeatures, decide_eq_true_eq]

omit [Build] in
theorem crc_eq_iff {b : Bytes} {c : Nat} (hc : c < U32) :
    c = (ext4Crc32c crcInitial b).toNat ↔
      IsCrc32c (BitVec.allOnes 32) b (BitVec.ofNat 32 c) := by
  have h1 : crcInitial = BitVec.allOnes 32 := by decide +kernel
  rw [← h1]
  constructor
  · rintro rfl
    rw [BitVec.ofNat_toNat, BitVec.setWidth_eq]
    exact ext4Crc32c_isCrc _ _
  · intro h
    have h' := ext4Crc32c_isCrc crcInitial b
    unfold IsCrc32c at h h'
    rw [← regPoly_inj (h.trans h'.symm), BitVec.toNat_ofNat, Nat.mod_eq_of_lt hc]

omit [Build] in
theorem validChecksum_iff (s : Ext4Superblock) :
    s.validChecksum = true ↔ s.get .checksumType = 0 ∨
      (s.get .checksumType = 1 ∧ s.get .checksum = s.expectedChecksum) := by
  unfold validChecksum checksum
  rcases h : s.get .checksumType with _ | _ | t
  · simp
  · simp
  · simp

omit [Build] in
theorem validErrorPolicy_iff (s : Ext4Superblock) :
    s.validErrorPolicy = true ↔
      s.get .errorPolicy = 1 ∨ s.get .errorPolicy = 2 ∨ s.get .errorPolicy = 3 := by
  unfold validErrorPolicy errorPolicy
  rcases h : s.get .errorPolicy with _ | _ | _ | _ | t <;> simp [ErrorPolicy.ofNat]

theorem valid_iff' (s : Ext4Superblock) :
    s.valid = .ok true ↔ s.magic = 0xef53 ∧ s.get .logBlockSize < 53
      ∧ s.get .logClusterSize < 53
      ∧ (s.bigalloc = false → s.get .logClusterSize = s.get .logBlockSize)
      ∧ (s.bigalloc = false → s.clustersPerGroup = s.blocksPerGroup)
      ∧ (s.get .errorPolicy = 1 ∨ s.get .errorPolicy = 2 ∨ s.get .errorPolicy = 3)
      ∧ s.get .logGroupsPerFlex < 63
      ∧ (s.get .checksumType = 0 ∨
          (s.get .checksumType = 1 ∧ s.get .checksum = s.expectedChecksum)) := by
  unfold valid
  split
  · next h =>
    simp only [Bool.and_eq_true, validBlockSize, validMagic, decide_eq_true_eq] at h
    rw [validClusterSize_of s h.2]
    simp only [Res.bind_ok, Res.pure_eq, Res.ok.injEq, Bool.and_eq_true, decide_eq_true_eq,
      validErrorPolicy_iff, validChecksum_iff, validGroupsPerFlex, validClustersPerGroup,
      Bool.or_eq_true, beq_iff_eq]
    rcases hb : s.bigalloc <;> simp [h.1, h.2, and_assoc]
  · next h =>
    simp only [Bool.and_eq_true, validBlockSize, validMagic, decide_eq_true_eq] at h
    constructor
    · intro h'; cases h'
    · intro h'; exact absurd ⟨h'.1, h'.2.1⟩ h

omit [Build] in
theorem expectedChecksum_eq (s : Ext4Superblock) :
    s.expectedChecksum = (ext4Crc32c crcInitial (s.bytes.take 0x3fc)).toNat := by
  have h : ext4SbLayout.offset .checksum = 0x3fc := by decide +kernel
  rw [expectedChecksum, h]; rfl

theorem valid_iff (s : Ext4Superblock) : s.valid = .ok true ↔ Ext4SbOk s.bytes := by
  rw [valid_iff']
  simp only [← Bool.not_eq_true, bigalloc_iff, magic, clustersPerGroup, blocksPerGroup,
    expectedChecksum_eq]
  rw [get_at (f := .magic) (off := 0x38) (w := 2) (by decide +kernel),
    get_at (f := .logBlockSize) (off := 0x18) (w := 4) (by decide +kernel),
    get_at (f := .logClusterSize) (off := 0x1c) (w := 4) (by decide +kernel),
    get_at (f := .clustersPerGroup) (off := 0x24) (w := 4) (by decide +kernel),
    get_at (f := .blocksPerGroup) (off := 0x20) (w := 4) (by decide +kernel),
    get_at (f := .errorPolicy) (off := 0x3c) (w := 2) (by decide +kernel),
    get_at (f := .logGroupsPerFlex) (off := 0x174) (w := 1) (by decide +kernel),
    get_at (f := .checksumType) (off := 0x175) (w := 1) (by decide +kernel),
    get_at (f := .checksum) (off := 0x3fc) (w := 4) (by decide +kernel),
    get_at (f := .readOnlyCompatibleFeatures) (off := 0x64) (w := 4) (by decide +kernel)]
  have hc : le s.bytes 0x3fc 4 < U32 := leNat_slice_lt _ _ _
  rw [crc_eq_iff hc]
  constructor
  · rintro ⟨h1, h2, h3, h4, h5, h6, h7, h8⟩
    exact ⟨h1, h2, h3, fun h => ⟨h4 h, h5 h⟩, h6, h7, h8⟩
  · rintro ⟨h1, h2, h3, h4, h6, h7, h8⟩
    exact ⟨h1, h2, h3, fun h => (h4 h).1, fun h => (h4 h).2, h6, h7, h8⟩

omit [Build] in
/-- A valid superblock with a CRC32C checksum has remainder zero over all of its bytes. -/
theorem crc_zero {b : Bytes} (hl : b.length = 1024) (hv : Ext4SbOk b) (ht : le b 0x175 1 ≠ 0) :
    ext4Crc32c crcInitial b = 0#32 := by
  rcases hv.checksum with h | ⟨-, h⟩
  · exact absurd h ht
  · have hc : le b 0x3fc 4 < U32 := leNat_slice_lt _ _ _
    have h1 := (crc_eq_iff hc).2 h
    have h2 : b.drop 0x3fc = leBytes 4 (le b 0x3fc 4) := by
      have : (b.drop 0x3fc).take 4 = b.drop 0x3fc := List.take_of_length_le (by simp; omega)
      rw [le, this]
      have h4 : (b.drop 0x3fc).length = 4 := by simp; omega
      rw [← h4, leBytes_leNat]
    have h3 : b = b.take 0x3fc ++ b.drop 0x3fc := (List.take_append_drop _ _).symm
    rw [h3, ext4Crc32c, List.foldl_append]
    show ext4Crc32c (ext4Crc32c crcInitial _) _ = _
    rw [h2, h1, ext4Crc32c_self]

end Ext4Superblock
end MdRecover
