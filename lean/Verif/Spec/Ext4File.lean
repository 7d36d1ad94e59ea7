import Verif.Spec.Ext4Fs
import Verif.Spec.Crc
import Verif.Model.Ext4File

/-! Extent trees as the kernel documents them, read from the bytes of the volume; and sequences of
calls on a file.  `c` is the content of the volume and `bs` its block size. -/

namespace MdSpec
open MdRecover
variable [Build]

/-- Number of entries of a node (`eh_entries`). -/
def nodeEntries (b : Bytes) : Nat := le b 2 2
/-- Depth of a node (`eh_depth`): zero for a leaf. -/
def nodeDepth (b : Bytes) : Nat := le b 6 2
/-- Entry `i`: entries of 12 bytes follow the header of 12 bytes. -/
def nodeEntry (b : Bytes) (i : Nat) : Bytes := (b.drop (12 + 12 * i)).take 12
/-- The entries lie inside the node. -/
def NodeFits (b : Bytes) : Prop := 12 + 12 * nodeEntries b ≤ b.length

/-- First file block an entry covers (`ee_block`, `ei_block`). -/
def entryFirst (e : Bytes) : Nat := le e 0 4
/-- First block of an extent on the volume (`ee_start_lo`, `ee_start_hi`). -/
def extentStart (e : Bytes) : Nat := le e 8 4 + le e 6 2 * 2 ^ 32
/-- Number of blocks of an extent (`ee_len`): an unwritten extent has 0x8000 added. -/
def extentLen (e : Bytes) : Nat := if le e 4 2 ≤ 0x8000 then le e 4 2 else le e 4 2 - 0x8000
/-- An unwritten extent: its blocks are allocated, and read as zeros. -/
def ExtentUnwritten (e : Bytes) : Prop := 0x8000 < le e 4 2
/-- Block of the node an index entry refers to (`ei_leaf_lo`, `ei_leaf_hi`). -/
def indexChild (e : Bytes) : Nat := le e 4 4 + le e 8 2 * 2 ^ 32

/-- Block `x` of the volume lies inside it. -/
def BlockInside (c : Bytes) (bs x : Nat) : Prop := x * bs + bs ≤ c.length
/-- Block `x` of the volume. -/
def blockOf (c : Bytes) (bs x : Nat) : Bytes := (c.drop (x * bs)).take bs

/-- `ExtentMap c bs node p x`: an extent of the tree under `node` maps block `p` of the file to block
`x` of the volume.  Any bytes may be the node. -/
inductive ExtentMap (c : Bytes) (bs : Nat) : Bytes → Nat → Nat → Prop where
  | extent (node : Bytes) (i j : Nat) : nodeDepth node = 0 → i < nodeEntries node →
      NodeFits node → j < extentLen (nodeEntry node i) →
      ExtentMap c bs node (entryFirst (nodeEntry node i) + j) (extentStart (nodeEntry node i) + j)
  | index (node : Bytes) (i p x : Nat) : nodeDepth node ≠ 0 → i < nodeEntries node →
      NodeFits node → BlockInside c bs (indexChild (nodeEntry node i)) →
      ExtentMap c bs (blockOf c bs (indexChild (nodeEntry node i))) p x → ExtentMap c bs node p x

/-- `Contiguous c bs node i p xs`: the entries of `node` from number `i` on map the blocks of the file
from `p` on, without gaps and in order, to the blocks `xs` of the volume, all written; every node lies
inside the volume. -/
inductive Contiguous (c : Bytes) (bs : Nat) : Bytes → Nat → Nat → List Nat → Prop where
  | done (node : Bytes) (p : Nat) : Contiguous c bs node (nodeEntries node) p []
  | extent (node : Bytes) (i p : Nat) (xs : List Nat) : nodeDepth node = 0 →
      i < nodeEntries node → NodeFits node → entryFirst (nodeEntry node i) = p →
      le (nodeEntry node i) 4 2 < 0x8000 →
      Contiguous c bs node (i + 1) (p + extentLen (nodeEntry node i)) xs →
      Contiguous c bs node i p
        ((List.range (extentLen (nodeEntry node i))).map (extentStart (nodeEntry node i) + ·) ++ xs)
  | index (node : Bytes) (i p : Nat) (sub xs : List Nat) : nodeDepth node ≠ 0 →
      i < nodeEntries node → NodeFits node → entryFirst (nodeEntry node i) = p →
      BlockInside c bs (indexChild (nodeEntry node i)) →
      Contiguous c bs (blockOf c bs (indexChild (nodeEntry node i))) 0 p sub →
      Contiguous c bs node (i + 1) (p + sub.length) xs → Contiguous c bs node i p (sub ++ xs)

/-- A tree without cycles whose nodes hold their entries.  Children outside the volume do not
matter. -/
inductive Tame (c : Bytes) (bs : Nat) : Bytes → Prop where
  | leaf (node : Bytes) : nodeDepth node = 0 → NodeFits node → Tame c bs node
  | branch (node : Bytes) : nodeDepth node ≠ 0 → NodeFits node →
      (∀ i, i < nodeEntries node → BlockInside c bs (indexChild (nodeEntry node i)) →
        Tame c bs (blockOf c bs (indexChild (nodeEntry node i)))) → Tame c bs node

/-- The file has less than 2^32 blocks, the limit of the format, so that counting them in 32 bits does not
wrap; or else overflow is checked by the build. -/
def BlocksCounted (c : Bytes) (size : Nat) : Prop :=
  Build.overflowChecks = true ∨ size ≤ (U32 - 1) * blockSizeOf (sbOf c)

/-- What the kernel checks of the depth: that of a child is one less than that of its parent. -/
def Leveled (c : Bytes) (bs : Nat) : Nat → Bytes → Prop
  | 0, node => nodeDepth node = 0 ∧ NodeFits node
  | d + 1, node => nodeDepth node = d + 1 ∧ NodeFits node ∧
      ∀ i, i < nodeEntries node → BlockInside c bs (indexChild (nodeEntry node i)) →
        Leveled c bs d (blockOf c bs (indexChild (nodeEntry node i)))

/-- A sound node: the magic number, and the entries (and the checksum, if there is one) fit; the
checksum at `tail` is that of all bytes before it. -/
def NodeSound (seed : Option Nat) (tail : Nat) (b : Bytes) : Prop :=
  12 ≤ b.length ∧ le b 0 2 = 0xf30a ∧ NodeFits b ∧
    ∀ s, seed = some s → tail + 4 ≤ b.length ∧
      IsCrc32c (BitVec.ofNat 32 s) (b.take tail) (BitVec.ofNat 32 (le b tail 4))

/-- Where the kernel keeps the checksum: after the space for `eh_max` entries
(fs/ext4/ext4_extents.h, `EXT4_EXTENT_TAIL_OFFSET`). -/
def kernelTail (b : Bytes) : Nat := 12 + 12 * le b 4 2

section
variable {W D : Type}

/-- A call of `read_next_block` returns with `r` (after any number of rounds of its loop). -/
def Returns (dev : StreamDev W D) (s : W × Ext4File D) (buf : Bytes) (s' : W × Ext4File D)
    (r : Res (Nat × Bytes)) : Prop :=
  ∃ fuel, Ext4File.readNextBlock dev fuel buf s = (s', some <$> r)

/-- Calls made one after the other, with their buffers and results; none of them panics. -/
inductive Calls (dev : StreamDev W D) :
    W × Ext4File D → List (Bytes × Res (Nat × Bytes)) → W × Ext4File D → Prop where
  | nil (s : W × Ext4File D) : Calls dev s [] s
  | snoc (s s' s'' : W × Ext4File D) (h : List (Bytes × Res (Nat × Bytes))) (buf : Bytes)
      (r : Res (Nat × Bytes)) : Calls dev s h s' → Returns dev s' buf s'' r → r ≠ .panic →
      Calls dev s (h ++ [(buf, r)]) s''

/-- The call returned data. -/
def gotData : Res (Nat × Bytes) → Bool
  | .ok (n, _) => n != 0
  | _ => false

/-- Number of calls that returned data. -/
def dataCalls (h : List (Bytes × Res (Nat × Bytes))) : Nat := h.countP fun x => gotData x.2

/-- All the data returned. -/
def dataOf (h : List (Bytes × Res (Nat × Bytes))) : Bytes :=
  h.flatMap fun x => match x.2 with
    | .ok (n, b) => b.take n
    | _ => []

end
end MdSpec
