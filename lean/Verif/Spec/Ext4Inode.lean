import Verif.Spec.Ext4Superblock

/-! The inode as the kernel documents it: its length on disk, and its times. -/

namespace MdSpec
open MdRecover
variable [Build]

/-- The extra size an inode declares (`i_extra_isize`, at 0x80): zero if the inode ends before or
right after that field. -/
def extraOf (b : Bytes) : Nat := if 130 < b.length then le b 0x80 2 else 0

/-- The part of an inode that holds fields: the original 128 bytes and the declared extra size. -/
def inodePart (b : Bytes) : Bytes := b.take (128 + extraOf b)

/-- A time in nanoseconds since the epoch: the low word is a signed number of seconds; of the extra
word the two low bits count units of 2^32 seconds, the others nanoseconds. -/
def timeOf (low extra : Nat) : Int :=
  ((if low < 2 ^ 31 then (low : Int) else (low : Int) - 2 ^ 32) + 2 ^ 32 * ((extra % 4 : Nat) : Int))
    * 10 ^ 9 + ((extra / 4 : Nat) : Int)

/-- The kernel's encoding (fs/ext4/ext4.h, `ext4_encode_extra_time`): low word and extra word of
`sec` seconds and `nsec` nanoseconds.  `signed` is the low word read as a signed number. -/
def encodeTime (sec : Int) (nsec : Nat) : Nat × Nat :=
  let low := sec % 2 ^ 32
  let signed := if low < 2 ^ 31 then low else low - 2 ^ 32
  (low.toNat, ((sec - signed) / 2 ^ 32 % 4).toNat + nsec * 4)

end MdSpec
