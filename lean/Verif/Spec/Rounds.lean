import Verif.Spec.NoPanic
import Verif.Spec.Ext4Session

/-! How much there is to do to read a file. -/

namespace MdSpec
open MdRecover

/-- To walk through the tree of a node takes at most so many rounds that return no block: for each extent, one to come
to it and one to leave it; for each child, one to come to it and those for the child; and one to leave the node.  Trees
with cycles have no such number.  A child outside the volume takes none. -/
inductive TreeRounds (c : Bytes) (bs : Nat) : Bytes → Nat → Prop where
  | leaf (node : Bytes) : nodeDepth node = 0 → TreeRounds c bs node (2 * nodeEntries node + 1)
  | branch (node : Bytes) (k : Nat → Nat) : nodeDepth node ≠ 0 →
      (∀ i, i < nodeEntries node → BlockInside c bs (indexChild (nodeEntry node i)) →
        TreeRounds c bs (blockOf c bs (indexChild (nodeEntry node i))) (k i)) →
      TreeRounds c bs node (((List.range (nodeEntries node)).map fun i => k i + 1).sum + 1)

/-- The rounds are enough for each file and directory of the volume: those for its tree and one for each block. -/
def EnoughRounds (c : Bytes) (R : Nat) : Prop :=
  ∀ n, InodeSlot c n → HasTree c n → ∃ k, TreeRounds c (blockSizeOf (sbOf c)) (rootNode c n) k ∧
    k + sizeOf c n / blockSizeOf (sbOf c) + 3 ≤ R

/-- A call is given at least so many rounds. -/
def SessionCall.given (R : Nat) : SessionCall → Prop
  | .nextBlock rounds _ => R ≤ rounds
  | .nextEntry rounds => R ≤ rounds
  | _ => True

end MdSpec
