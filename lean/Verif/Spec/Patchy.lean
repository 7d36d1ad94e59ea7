import Verif.Spec.Ext4Path
import Verif.Spec.Ext4Session
import Verif.Spec.ArrayDamage

/-! Devices parts of which cannot be read, and what of such a device is needed to read a file. -/

namespace MdSpec
open MdRecover

/-- `dev` implements the `BlockDevice` interface: in every world satisfying `G`, a handle `d` with
`Is d k bad` answers as disk `k`, except that reading a block `b` with `bad b` may fail.  Nothing else fails. -/
structure PatchyDev {W D : Type} (dev : BlockDev W D) (G : W → Prop)
    (Is : D → Disk → (Nat → Prop) → Prop) : Prop where
  wf : ∀ {d k bad}, Is d k bad → k.Wf
  blockSize : ∀ {w d k bad}, G w → Is d k bad →
    G (dev.blockSize d w).1 ∧ (dev.blockSize d w).2 = .ok k.bs
  blockCount : ∀ {w d k bad}, G w → Is d k bad →
    G (dev.blockCount d w).1 ∧ (dev.blockCount d w).2 = .ok k.n
  readBlock : ∀ {w d k bad}, G w → Is d k bad → ∀ b buf, b < k.n → buf.length = k.bs →
    G (dev.readBlock b buf (w, d)).1.1 ∧ Is (dev.readBlock b buf (w, d)).1.2 k bad ∧
      Gives (bad b) (dev.readBlock b buf (w, d)).2 (k.bs, (k.content.drop (b * k.bs)).take k.bs)
  tryClone : ∀ {w d k bad}, G w → Is d k bad → G (dev.tryClone d w).1 ∧
    ∃ d', (dev.tryClone d w).2 = .ok d' ∧ Is d' k bad

/-- None of the `len` bytes from `p` on, as far as they are in `c`, is one of the bytes `bad`. -/
def Intact (bad : Nat → Prop) (c : Bytes) (p len : Nat) : Prop :=
  ∀ x, p ≤ x → x < p + len → x < c.length → ¬ bad x

/-- A volume some bytes of which cannot be read: only reading from a range with such a byte may fail. -/
structure PatchyVolume {W D : Type} (bad : Nat → Prop) (lim : Nat → Nat) (dev : StreamDev W D)
    (G : W → Prop) (Is : D → Bytes → Prop) (At : W → D → Nat → Prop) : Prop
    extends SeekableVolume True lim dev G Is At where
  seekOk : ∀ {w d c}, G w → Is d c → ∀ p, p < U64 → p ≤ lim c.length →
    ∃ q, (dev.seek (.start p) (w, d)).2 = .ok q
  seekNo : ∀ {w d c}, G w → Is d c → ∀ p, p < U64 → lim c.length < p →
    (dev.seek (.start p) (w, d)).2 = .err .invalidInput
  readOk : ∀ {w d c p}, G w → Is d c → At w d p → ∀ buf, (buf ≠ [] ∨ c.length ≤ p) →
    Intact bad c p buf.length → ∃ a, (dev.read buf (w, d)).2 = .ok a
  cloneOk : ∀ {w d c}, G w → Is d c → ∃ d', (dev.tryClone d w).2 = .ok d'
  position : ∀ {w d p q}, At w d p → At w d q → p = q

/-- Sector `s` of a disk is partly in an unreadable block. -/
def SectorUnreadable (k : Disk) (bad : Nat → Prop) (s : Nat) : Prop :=
  ∃ x, s * 512 ≤ x ∧ x < s * 512 + 512 ∧ bad (x / k.bs)

/-- Sector `b` of the array is in a stripe where the same sector of a member cannot be read. -/
def StripeUnreadable (n c : Nat) (members : Nat → Disk) (unreadable : Nat → Nat → Prop) (b : Nat) : Prop :=
  ∃ d, d < n ∧ SectorUnreadable (members d) (unreadable d) (b / c / (n - 2) * c + b % c)

/-! ## What is needed -/

/-- The nodes of an extent tree. -/
inductive TreeNode (c : Bytes) (bs : Nat) (root : Bytes) : Bytes → Prop where
  | root : TreeNode c bs root root
  | child (node : Bytes) (i : Nat) : TreeNode c bs root node → nodeDepth node ≠ 0 →
      i < nodeEntries node → NodeFits node → BlockInside c bs (indexChild (nodeEntry node i)) →
      TreeNode c bs root (blockOf c bs (indexChild (nodeEntry node i)))

/-- The blocks of an extent tree: those of its nodes, and those mapped by its extents. -/
def TreeBlock (c : Bytes) (bs : Nat) (root : Bytes) (x : Nat) : Prop :=
  ∃ node i, TreeNode c bs root node ∧ NodeFits node ∧ i < nodeEntries node ∧
    ((nodeDepth node ≠ 0 ∧ x = indexChild (nodeEntry node i)) ∨
     (nodeDepth node = 0 ∧ ∃ j, j < extentLen (nodeEntry node i) ∧ x = extentStart (nodeEntry node i) + j))

/-- The superblock and the group descriptors are readable. -/
def FsIntact (bad : Nat → Prop) (c : Bytes) : Prop :=
  Intact bad c 1024 1024 ∧ Intact bad c (groupTableOf (sbOf c)) (groupsOf (sbOf c) * le (sbOf c) 0xfe 2)

/-- Inode `n` and all blocks of its extent tree are readable. -/
def InodeIntact (bad : Nat → Prop) (c : Bytes) (n : Nat) : Prop :=
  Intact bad c (inodeSlot c n) (le (sbOf c) 0x58 2) ∧
    ∀ x, TreeBlock c (blockSizeOf (sbOf c)) (rootNode c n) x →
      Intact bad c (x * blockSizeOf (sbOf c)) (blockSizeOf (sbOf c))

/-- What the filesystem needs is readable, and so is every inode on the way along the path. -/
def PathIntact (bad : Nat → Prop) (c : Bytes) (names : List Bytes) : Prop :=
  FsIntact bad c ∧ ∀ front rest n, names = front ++ rest → Leads c CleanName 2 front n → InodeIntact bad c n

end MdSpec
