import Verif.Lemmas.Ext4Inode
import Verif.Spec.Ext4File

namespace MdRecover
open MdSpec

namespace ExtentNode

theorem header_at {f : HeaderField} {off w : Nat}
    (h : (headerLayout.offset f, headerLayout.width f) = (off, w)) (n : ExtentNode) :
    n.header f = le n.storage off w := by
  show le n.storage _ _ = _
  rw [(Prod.mk.inj h).1, (Prod.mk.inj h).2]

theorem entryCount_eq (n : ExtentNode) : n.entryCount = nodeEntries n.storage :=
  n.header_at (by decide +kernel)

theorem depth_eq (n : ExtentNode) : n.depth = nodeDepth n.storage :=
  n.header_at (by decide +kernel)

theorem header_size : headerLayout.size = 12 := by decide +kernel
theorem index_size : indexLayout.size = 12 := by decide +kernel

theorem entriesSize_eq (n : ExtentNode) : n.entriesSize = nodeEntries n.storage * 12 := by
  unfold entriesSize; rw [entryCount_eq, index_size]

theorem entriesAndTail_eq (n : ExtentNode) : n.entriesAndTail = n.storage.drop 12 := by
  unfold entriesAndTail; rw [header_size]

/-- An entry, if the entries fit. -/
theorem entryAt_fits {n : ExtentNode} {pos : Nat} (hp : pos < nodeEntries n.storage)
    (hf : NodeFits n.storage) : n.entryAt pos = .ok (nodeEntry n.storage pos) := by
  unfold NodeFits at hf
  unfold entryAt entriesStorage
  rw [entriesSize_eq, entriesAndTail_eq, if_neg (by rw [List.length_drop]; omega), Res.bind_ok,
    index_size]
  show Res.ok _ = Res.ok _
  congr 1
  unfold slice nodeEntry
  rw [List.drop_take, List.take_take, Nat.min_eq_left (by omega), List.drop_drop]
  congr 2; omega

/-- Reading an entry panics if the entries do not fit. -/
theorem entryAt_panics {n : ExtentNode} {pos : Nat} (hp : pos < nodeEntries n.storage)
    (hf : ¬ NodeFits n.storage) : n.entryAt pos = .panic := by
  unfold NodeFits at hf
  unfold entryAt entriesStorage
  rw [entriesSize_eq, entriesAndTail_eq, if_pos (by rw [List.length_drop]; omega), Res.bind_panic]

end ExtentNode

namespace Extent

theorem get_at {f : ExtentField} {off w : Nat}
    (h : (extentLayout.offset f, extentLayout.width f) = (off, w)) (e : Extent) :
    e.get f = le e.storage off w := by
  show le e.storage _ _ = _
  rw [(Prod.mk.inj h).1, (Prod.mk.inj h).2]

theorem first_eq (e : Extent) : e.firstFileBlockNumber = entryFirst e.storage :=
  e.get_at (by decide +kernel)

theorem raw_eq (e : Extent) : e.get .length = le e.storage 4 2 := e.get_at (by decide +kernel)

theorem length_eq (e : Extent) : e.length = le e.storage 4 2 % 0x8000 := by
  unfold length
  rw [raw_eq, show (0x7fff : Nat) = 2 ^ 15 - 1 from rfl, Nat.and_two_pow_sub_one_eq_mod]

theorem length_le (e : Extent) : e.length ≤ extentLen e.storage := by
  rw [length_eq]
  unfold extentLen
  have : le e.storage 4 2 < 65536 := le_lt _ _ 2
  split <;> omega

theorem length_of_written (e : Extent) (h : le e.storage 4 2 < 0x8000) :
    e.length = extentLen e.storage := by
  rw [length_eq]
  unfold extentLen
  rw [if_pos (by omega), Nat.mod_eq_of_lt h]

theorem start_eq (e : Extent) : e.firstFsBlockNumber = extentStart e.storage := by
  unfold firstFsBlockNumber extentStart
  rw [get_at (off := 8) (w := 4) (by decide +kernel), get_at (off := 6) (w := 2) (by decide +kernel),
    (C51_value 32 _ _ (le_lt _ _ 4) (Nat.lt_trans (le_lt _ _ 2) (by decide))).1]

end Extent

namespace ExtentIndex

theorem get_at {f : IndexField} {off w : Nat}
    (h : (indexLayout.offset f, indexLayout.width f) = (off, w)) (e : ExtentIndex) :
    e.get f = le e.storage off w := by
  show le e.storage _ _ = _
  rw [(Prod.mk.inj h).1, (Prod.mk.inj h).2]

theorem block_eq (e : ExtentIndex) : e.block = entryFirst e.storage := e.get_at (by decide +kernel)

theorem leaf_eq (e : ExtentIndex) : e.leaf = indexChild e.storage := by
  unfold leaf indexChild
  rw [get_at (off := 4) (w := 4) (by decide +kernel), get_at (off := 8) (w := 2) (by decide +kernel),
    (C51_value 32 _ _ (le_lt _ _ 4) (Nat.lt_trans (le_lt _ _ 2) (by decide))).1]

end ExtentIndex

namespace ExtentTree

theorem fromInternal_leaf {n : ExtentNode} (h : nodeDepth n.storage = 0) :
    fromInternal n = .leaf n := by
  unfold fromInternal; rw [if_pos (n.depth_eq.trans h)]

theorem fromInternal_branch {n : ExtentNode} (h : nodeDepth n.storage ≠ 0) :
    fromInternal n = .branch n := by
  unfold fromInternal; rw [if_neg (n.depth_eq ▸ h)]

theorem node_fromInternal (n : ExtentNode) : (fromInternal n).node = n := by
  unfold fromInternal; split <;> rfl

end ExtentTree
end MdRecover
