import Verif.Model.Basic
import Verif.Model.Utf8

/- Names and paths stored in ext4 structures.  Models /repo/src/ext4/string.rs. -/

namespace MdRecover

/-- `Ext4String<S>` (src/ext4/string.rs 7-8): its bytes. -/
structure Ext4String where
  bytes : Bytes
  deriving DecidableEq, Repr

namespace Ext4String

/-- `from_null_terminated_bytes` (src/ext4/string.rs 11-13): the first piece of
`bytes.split(|c| *c == 0)`, that is, everything before the first zero byte. -/
def fromNullTerminated (bytes : Bytes) : Ext4String := ⟨bytes.takeWhile (· != 0)⟩

/-- `len` (src/ext4/string.rs 25-27). -/
def len (s : Ext4String) : Nat := s.bytes.length

/-- `is_empty` (src/ext4/string.rs 29-31). -/
def isEmpty (s : Ext4String) : Bool := s.len = 0

/-- A string, or `None` if it is empty (src/ext4/superblock/superblock.rs 335-343, 345-354,
514-523, 554-563). -/
def nonEmpty (s : Ext4String) : Option Ext4String := if s.isEmpty then none else some s

/-- `to_str_lossy` (src/ext4/string.rs 21-23), also `Display` (src/ext4/string.rs 88-92): the bytes of
the `str`. -/
def toStrLossy (s : Ext4String) : Bytes := Utf8.lossy s.bytes

/-- `TryFrom<&Ext4String<S>> for String` (src/ext4/string.rs 40-46); `None` for the error. -/
def tryIntoString (s : Ext4String) : Option Bytes := Utf8.fromUtf8 s.bytes

/-- `==` (src/ext4/string.rs 60-64). -/
def eq (s t : Ext4String) : Bool := s.bytes == t.bytes

/-- `Ord` of `str`: the order of the bytes (library/core/src/str/traits.rs), that of slices of bytes
(library/core/src/slice/cmp.rs). -/
def cmpBytes : Bytes → Bytes → Ordering
  | [], [] => .eq
  | [], _ :: _ => .lt
  | _ :: _, [] => .gt
  | a :: as, b :: bs => if a < b then .lt else if b < a then .gt else cmpBytes as bs

/-- `cmp` (src/ext4/string.rs 74-80); `partial_cmp` (src/ext4/string.rs 68-72) is the same. -/
def cmp (s t : Ext4String) : Ordering := cmpBytes s.toStrLossy t.toStrLossy

/-- What `hash` (src/ext4/string.rs 82-86) writes into the hasher: `Hash` of `str`
(library/core/src/hash/mod.rs) writes the bytes and 0xff. -/
def hashed (s : Ext4String) : Bytes := s.toStrLossy ++ [0xff]

end Ext4String
end MdRecover
