import Verif.Spec.Ext4Session

/-! Programs that go on after failures, for C133. -/

namespace MdSpec
open MdRecover

/-- Devices and filesystems: handles without a place in a file or directory. -/
def Handle.lasting {D : Type} : Handle D → Prop
  | .device _ => True
  | .fs _ => True
  | _ => False

/-- A program that begins with a handle that has the number `i` among `n` handles, and makes new ones: its own number
of a handle, and the number among all. -/
def renumber (i n k : Nat) : Nat := if k = 0 then i else n + (k - 1)

end MdSpec
