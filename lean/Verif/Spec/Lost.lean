import Verif.Spec.Elsewhere

/-! Devices that never return some of their bytes. -/

namespace MdSpec
open MdRecover

/-- No read that succeeds returns a byte of the places `lost`. -/
def Withholds {W D : Type} (lost : Nat → Prop) (dev : StreamDev W D) (G : W → Prop) (Is : D → Bytes → Prop)
    (At : W → D → Nat → Prop) : Prop :=
  ∀ {w d c p}, G w → Is d c → At w d p → ∀ buf {s' j out}, dev.read buf (w, d) = (s', .ok (j, out)) →
    ∀ y, p ≤ y → y < p + j → ¬ lost y

/-- A byte of block `x` of the volume is lost, one that is neither of the superblock, nor of the group descriptors,
nor of the blocks with the inner nodes of the extent tree with this root. -/
def BlockLost (lost : Nat → Prop) (c root : Bytes) (x : Nat) : Prop :=
  ∃ y, lost y ∧ x * blockSizeOf (sbOf c) ≤ y ∧ y < x * blockSizeOf (sbOf c) + blockSizeOf (sbOf c) ∧ y < c.length ∧
    FsIntact (· = y) c ∧ ∀ node i, TreeNode c (blockSizeOf (sbOf c)) root node → nodeDepth node ≠ 0 →
      i < nodeEntries node →
      Intact (· = y) c (indexChild (nodeEntry node i) * blockSizeOf (sbOf c)) (blockSizeOf (sbOf c))

end MdSpec
