import Verif.Spec.Patchy

/-! Extent trees all of whose entries map something, as the kernel writes them. -/

namespace MdSpec
open MdRecover

/-- Every node of the tree has entries, and every extent has blocks. -/
def EntriesFull (c : Bytes) (bs : Nat) (root : Bytes) : Prop :=
  ∀ node, TreeNode c bs root node → nodeEntries node ≠ 0 ∧
    (nodeDepth node = 0 → ∀ i, i < nodeEntries node → extentLen (nodeEntry node i) ≠ 0)

end MdSpec
