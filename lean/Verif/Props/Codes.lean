import Verif.Model.Codes
import Verif.Spec.Ext4File
import Verif.Lemmas.Ext4Extent

/- C82: coded values, read and written.  C83: the entries of an extent node. -/

namespace MdRecover
open MdSpec

/-- C82: reading any number and writing the value gives the number back. -/
theorem C82_read_write (v : Nat) :
    (ErrorPolicy.ofNat v).toNat = v ∧ (CreatorOs.ofNat v).toNat = v ∧ (HashVersion.ofNat v).toNat = v
    ∧ (EncryptionAlgorithm.ofNat v).toNat = v ∧ (ChecksumType.ofNat v).toNat = v
    ∧ (FileType.ofNat v).toNat = v ∧ (DirFileType.ofNat v).toNat = v := by
  refine ⟨?_, ?_, ?_, ?_, ?_, ?_, ?_⟩
  · unfold ErrorPolicy.ofNat; split <;> rfl
  · unfold CreatorOs.ofNat; split <;> rfl
  · unfold HashVersion.ofNat; split <;> rfl
  · unfold EncryptionAlgorithm.ofNat; split <;> rfl
  · unfold ChecksumType.ofNat; split <;> rfl
  · unfold FileType.ofNat; split <;> rfl
  · unfold DirFileType.ofNat; split <;> rfl

/-- C82 in part: writing a value and reading it gives the value back, exactly unless it is "unknown" with a
number that is known.  Missing: those values (`C82_unknown_known`). -/
theorem C82_write_read_partial (p : ErrorPolicy) (o : CreatorOs) (h : HashVersion)
    (a : EncryptionAlgorithm) (c : ChecksumType) (t : FileType) (u : DirFileType) :
    (ErrorPolicy.ofNat p.toNat = p ↔ ∀ v ∈ [1, 2, 3], p ≠ .unknown v)
    ∧ (CreatorOs.ofNat o.toNat = o ↔ ∀ v ∈ [0, 1, 2, 3, 4], o ≠ .unknown v)
    ∧ (HashVersion.ofNat h.toNat = h ↔ ∀ v ∈ [0, 1, 2, 3, 4, 5], h ≠ .unknown v)
    ∧ (EncryptionAlgorithm.ofNat a.toNat = a ↔ ∀ v ∈ [0, 1, 2, 3], a ≠ .unknown v)
    ∧ (ChecksumType.ofNat c.toNat = c ↔ ∀ v ∈ [0, 1], c ≠ .unknown v)
    ∧ (FileType.ofNat t.toNat = t ↔ ∀ v ∈ [1, 2, 4, 6, 8, 10, 12], t ≠ .unknown v)
    ∧ (DirFileType.ofNat u.toNat = u ↔ ∀ v ∈ [1, 2, 3, 4, 5, 6, 7], u ≠ .unknown v) := by
  refine ⟨?_, ?_, ?_, ?_, ?_, ?_, ?_⟩
  · cases p <;> simp [ErrorPolicy.toNat, ErrorPolicy.ofNat]
    split <;> simp_all
  · cases o <;> simp [CreatorOs.toNat, CreatorOs.ofNat]
    split <;> simp_all
  · cases h <;> simp [HashVersion.toNat, HashVersion.ofNat]
    split <;> simp_all
  · cases a <;> simp [EncryptionAlgorithm.toNat, EncryptionAlgorithm.ofNat]
    split <;> simp_all
  · cases c <;> simp [ChecksumType.toNat, ChecksumType.ofNat]
    split <;> simp_all
  · cases t <;> simp [FileType.toNat, FileType.ofNat]
    split <;> simp_all
  · cases u <;> simp [DirFileType.toNat, DirFileType.ofNat]
    split <;> simp_all

/-- C82: what can be read is never such a value, so that what was read survives being written. -/
theorem C82_read_values (v : Nat) :
    ErrorPolicy.ofNat (ErrorPolicy.ofNat v).toNat = .ofNat v
    ∧ CreatorOs.ofNat (CreatorOs.ofNat v).toNat = .ofNat v
    ∧ HashVersion.ofNat (HashVersion.ofNat v).toNat = .ofNat v
    ∧ EncryptionAlgorithm.ofNat (EncryptionAlgorithm.ofNat v).toNat = .ofNat v
    ∧ ChecksumType.ofNat (ChecksumType.ofNat v).toNat = .ofNat v
    ∧ FileType.ofNat (FileType.ofNat v).toNat = .ofNat v
    ∧ DirFileType.ofNat (DirFileType.ofNat v).toNat = .ofNat v := by
  obtain ⟨h1, h2, h3, h4, h5, h6, h7⟩ := C82_read_write v
  rw [h1, h2, h3, h4, h5, h6, h7]
  exact ⟨rfl, rfl, rfl, rfl, rfl, rfl, rfl⟩

/-- C82: an inode type converted for a directory entry and written reads back as the conversion, exactly
unless it is one of the unknown types 3, 5 and 7 (or a number no mode contains that is wrongly called
unknown). -/
theorem C82_converted (v : Nat) (hv : v < 16) :
    DirFileType.ofNat (DirFileType.ofFileType (.ofNat v)).toNat = .ofFileType (.ofNat v)
      ↔ v ≠ 3 ∧ v ≠ 5 ∧ v ≠ 7 := by
  have : ∀ v, v < 16 →
      (DirFileType.ofNat (DirFileType.ofFileType (.ofNat v)).toNat = .ofFileType (.ofNat v)
        ↔ v ≠ 3 ∧ v ≠ 5 ∧ v ≠ 7) := by decide
  exact this v hv

/-- C82 is false as stated: a value that is "unknown" with a known number reads back as another value.  It
arises without being made on purpose: the inode type 3, which is unknown, becomes a directory entry that is
read as a character device. -/
theorem C82_unknown_known :
    ErrorPolicy.ofNat (ErrorPolicy.unknown 1).toNat = .continue_
    ∧ FileType.ofNat 3 = .unknown 3
    ∧ DirFileType.ofNat (DirFileType.ofFileType (.ofNat 3)).toNat = .characterDevice
    ∧ FileType.ofDirFileType .characterDevice ≠ .ofNat 3 := by decide

/-- C82, a case: a creator that is not known survives. -/
example : CreatorOs.ofNat 77 = .unknown 77 ∧ (CreatorOs.ofNat 77).toNat = 77
    ∧ CreatorOs.ofNat (CreatorOs.unknown 77).toNat = .unknown 77 := by decide

/-- C83: entry `pos` of a leaf or of a branch is the record of 12 bytes with this number after the header;
there is none from the number of entries on; it panics exactly if the entries do not fit in the node. -/
theorem C83_entries (n : ExtentNode) (pos : Nat) :
    (nodeEntries n.storage ≤ pos → n.extentAt pos = .ok none ∧ n.subtreeIndexAt pos = .ok none) ∧
    (pos < nodeEntries n.storage → NodeFits n.storage →
      n.extentAt pos = .ok (some ⟨nodeEntry n.storage pos⟩) ∧
      n.subtreeIndexAt pos = .ok (some ⟨nodeEntry n.storage pos⟩)) ∧
    (pos < nodeEntries n.storage → ¬ NodeFits n.storage →
      n.extentAt pos = .panic ∧ n.subtreeIndexAt pos = .panic) := by
  unfold ExtentNode.extentAt ExtentNode.subtreeIndexAt
  rw [ExtentNode.entryCount_eq]
  refine ⟨fun h => ?_, fun h hf => ?_, fun h hf => ?_⟩
  · rw [if_neg (by omega), if_neg (by omega)]; exact ⟨rfl, rfl⟩
  · rw [if_pos h, if_pos h, ExtentNode.entryAt_fits h hf]; exact ⟨rfl, rfl⟩
  · rw [if_pos h, if_pos h, ExtentNode.entryAt_panics h hf]; exact ⟨rfl, rfl⟩

/-- The results of `k` calls of `next`. -/
def leafCalls : Nat → ExtentLeafIter → Res (List (Option Extent))
  | 0, _ => .ok []
  | k + 1, i => do
    let r ← i.next
    let rs ← leafCalls k r.2
    pure (r.1 :: rs)

/-- C83: iterating over a leaf returns its extents in order, each once, and then always `None`. -/
theorem C83_iterates (n : ExtentNode) (hf : NodeFits n.storage) (k : Nat) :
    leafCalls k ⟨n, 0⟩ = .ok ((List.range k).map fun i =>
      if i < nodeEntries n.storage then some ⟨nodeEntry n.storage i⟩ else none) := by
  have key : ∀ (k p : Nat), p ≤ nodeEntries n.storage → leafCalls k ⟨n, p⟩ =
      .ok ((List.range k).map fun i =>
        if p + i < nodeEntries n.storage then some ⟨nodeEntry n.storage (p + i)⟩ else none) := by
    intro k
    induction k with
    | zero => intro p _; rfl
    | succ k ih =>
      intro p hp
      rw [List.range_succ_eq_map, List.map_cons, List.map_map]
      unfold leafCalls ExtentLeafIter.next
      simp only [ExtentNode.entryCount_eq]
      by_cases h : p < nodeEntries n.storage
      · rw [if_pos h, ExtentNode.entryAt_fits h hf]
        show (do let rs ← leafCalls k ⟨n, p + 1⟩; pure (some (Extent.mk (nodeEntry n.storage p)) :: rs)) = _
        rw [ih (p + 1) (by omega)]
        simp only [Nat.add_zero, if_pos h]
        refine congrArg (fun l => Res.ok (some (Extent.mk (nodeEntry n.storage p)) :: l)) ?_
        refine List.map_congr_left fun i _ => ?_
        simp only [Function.comp, Nat.succ_eq_add_one, show p + 1 + i = p + (i + 1) by omega]
      · rw [if_neg h]
        show (do let rs ← leafCalls k ⟨n, p⟩; pure ((none : Option Extent) :: rs)) = _
        rw [ih p hp]
        simp only [Nat.add_zero, if_neg h]
        refine congrArg (fun l => Res.ok ((none : Option Extent) :: l)) ?_
        refine List.map_congr_left fun i _ => ?_
        simp only [Function.comp, Nat.succ_eq_add_one]
        rw [if_neg (by omega), if_neg (by omega)]
  have := key k 0 (by omega)
  simpa only [Nat.zero_add] using this

/-- C83, a case: a leaf in an inode with two extents, of two blocks at 8 and of one at 300. -/
example : leafCalls 3 ⟨⟨[0x0a, 0xf3, 2, 0, 4, 0, 0, 0, 0, 0, 0, 0,
      0, 0, 0, 0, 2, 0, 0, 0, 8, 0, 0, 0, 2, 0, 0, 0, 1, 0, 0, 0, 44, 1, 0, 0] ++ zeros 24, none⟩, 0⟩
    = .ok [some ⟨[0, 0, 0, 0, 2, 0, 0, 0, 8, 0, 0, 0]⟩, some ⟨[2, 0, 0, 0, 1, 0, 0, 0, 44, 1, 0, 0]⟩, none]
    ∧ (Extent.mk [2, 0, 0, 0, 1, 0, 0, 0, 44, 1, 0, 0]).firstFsBlockNumber = 300 := by
  decide +kernel

end MdRecover
