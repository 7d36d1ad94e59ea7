import Verif.Spec.Ext4Path

/-! Damage to the metadata of a volume, and the checksums of the disk format. -/

namespace MdSpec
open MdRecover
variable [Build]

/-- `b` is `a` with up to four consecutive bytes changed, all of them between `start` and `stop`. -/
def DamagedIn (start stop : Nat) (a b : Bytes) : Prop :=
  ∃ front w v rest, a = front ++ w ++ rest ∧ b = front ++ v ++ rest ∧ w.length = v.length ∧
    w.length ≤ 4 ∧ w ≠ v ∧ start ≤ front.length ∧ front.length + w.length ≤ stop

/-- The bytes with `n` of them, from `off`, replaced by zeros. -/
def zeroed (b : Bytes) (off n : Nat) : Bytes := b.take off ++ List.replicate n 0 ++ b.drop (off + n)

/-- The checksum in an inode, `i_checksum_lo` at 0x7c and `i_checksum_hi` at 0x82 (which the part after the
first 128 bytes includes), is that of the inode with zeros in the place of the checksum. -/
def InodeSum (seed : BitVec 32) (b : Bytes) : Prop :=
  IsCrc32c seed (zeroed (zeroed b 0x7c 2) 0x82 2) (BitVec.ofNat 32 (le b 0x7c 2 + le b 0x82 2 * 2 ^ 16))

/-- The checksum of descriptor `i`, `bg_checksum` at 0x1e, is made of the lower 16 bits of that of the number
and of the descriptor with zeros in the place of the checksum. -/
def GroupSum (seed : BitVec 32) (i : Nat) (b : Bytes) : Prop :=
  ∃ s : BitVec 32, IsCrc32c seed (leBytes 4 i ++ zeroed b 0x1e 2) s ∧ le b 0x1e 2 = s.toNat % 2 ^ 16

end MdSpec
