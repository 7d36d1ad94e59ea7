import Mathlib.Logic.Relation
import Verif.Spec.Patchy

/-! Extent trees on which a read does not come to an end.  `p` is the number of blocks of the file read so far. -/

namespace MdSpec
open MdRecover

/-- One of the entries of the index node `a` that are for block `p` of the file on leads to node `b`. -/
def IndexStep (c : Bytes) (bs p : Nat) (a b : Bytes) : Prop :=
  nodeDepth a ≠ 0 ∧ NodeFits a ∧ ∃ i, i < nodeEntries a ∧ entryFirst (nodeEntry a i) = p ∧
    BlockInside c bs (indexChild (nodeEntry a i)) ∧ b = blockOf c bs (indexChild (nodeEntry a i))

/-- A tree without any block, with all its entries for block `p` on: the extents have length 0 (or 0x8000, which the
code takes for 0). -/
inductive Hollow (c : Bytes) (bs p : Nat) : Bytes → Prop where
  | leaf (node : Bytes) : nodeDepth node = 0 →
      (∀ i, i < nodeEntries node → NodeFits node ∧ entryFirst (nodeEntry node i) = p ∧
        le (nodeEntry node i) 4 2 % 0x8000 = 0) → Hollow c bs p node
  | branch (node : Bytes) : nodeDepth node ≠ 0 →
      (∀ i, i < nodeEntries node → NodeFits node ∧ entryFirst (nodeEntry node i) = p ∧
        BlockInside c bs (indexChild (nodeEntry node i))) →
      (∀ i, i < nodeEntries node → Hollow c bs p (blockOf c bs (indexChild (nodeEntry node i)))) → Hollow c bs p node

/-- The first entry of the index node `a` that does not lead to an empty tree leads to node `b`; all entries up to it
are for block `p` on. -/
def FirstStep (c : Bytes) (bs p : Nat) (a b : Bytes) : Prop :=
  nodeDepth a ≠ 0 ∧ NodeFits a ∧ ∃ i, i < nodeEntries a ∧
    (∀ j, j ≤ i → entryFirst (nodeEntry a j) = p ∧ BlockInside c bs (indexChild (nodeEntry a j))) ∧
    (∀ j, j < i → Hollow c bs p (blockOf c bs (indexChild (nodeEntry a j)))) ∧
    b = blockOf c bs (indexChild (nodeEntry a i))

/-- The first `i` entries of a node are for the blocks of the file from `p` up to `q`, in order and without gaps: each
extent begins with the block that comes next and has the length the code takes it to have, each index entry is for the
block that comes next and leads to a node inside the volume of which all entries are so. -/
inductive Spans (c : Bytes) (bs : Nat) : Bytes → Nat → Nat → Nat → Prop where
  | none (node : Bytes) (p : Nat) : Spans c bs node 0 p p
  | extent (node : Bytes) (i p q : Nat) : Spans c bs node i p q → nodeDepth node = 0 → NodeFits node →
      i < nodeEntries node → entryFirst (nodeEntry node i) = q →
      Spans c bs node (i + 1) p (q + le (nodeEntry node i) 4 2 % 0x8000)
  | index (node : Bytes) (i p q q' : Nat) : Spans c bs node i p q → nodeDepth node ≠ 0 → NodeFits node →
      i < nodeEntries node → entryFirst (nodeEntry node i) = q → BlockInside c bs (indexChild (nodeEntry node i)) →
      Spans c bs (blockOf c bs (indexChild (nodeEntry node i)))
        (nodeEntries (blockOf c bs (indexChild (nodeEntry node i)))) q q' →
      Spans c bs node (i + 1) p q'

/-- From node `a.1`, where the block that comes next is `a.2`, one comes to its child `b.1`, where it is `b.2`: the
entries before are for the blocks between, and that of the child is for block `b.2` on. -/
def LeadsTo (c : Bytes) (bs : Nat) (a b : Bytes × Nat) : Prop :=
  nodeDepth a.1 ≠ 0 ∧ NodeFits a.1 ∧ ∃ i, i < nodeEntries a.1 ∧ Spans c bs a.1 i a.2 b.2 ∧
    entryFirst (nodeEntry a.1 i) = b.2 ∧ BlockInside c bs (indexChild (nodeEntry a.1 i)) ∧
    b.1 = blockOf c bs (indexChild (nodeEntry a.1 i))

end MdSpec
