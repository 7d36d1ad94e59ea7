import Verif.Spec.Patchy
import Verif.Spec.Main

/-! Volumes that differ in some bytes only. -/

namespace MdSpec
open MdRecover

/-- `c'` is as long as `c`, and all its bytes are those of `c`, except where `bad` says. -/
def SameExcept (bad : Nat → Prop) (c c' : Bytes) : Prop :=
  c'.length = c.length ∧ ∀ x, ¬ bad x → c'[x]? = c[x]?

/-- Devices of the same size with the same superblocks: at each place where a superblock can be, they have the same
4096 bytes, or neither has a superblock there. -/
structure SamePlaces (c c' : Bytes) : Prop where
  length : c'.length = c.length
  v1 : ∀ off, off = 0 ∨ off = 4096 ∨ Place10 c.length off →
    slice c' off 4096 = slice c off 4096 ∨ (¬ V1At c off ∧ ¬ V1At c' off)
  v0 : ∀ off, Place090 c.length off →
    slice c' off 4096 = slice c off 4096 ∨ ∀ e, ¬ V0At c off e ∧ ¬ V0At c' off e

/-- What is at a path looks the same to the program: it cannot be opened, for the same reason; or it is not a
block device; or it is a block device with the same superblock in its whole blocks. -/
inductive LooksSame : Except Nat OsFile → Except Nat OsFile → Prop where
  | error (code : Nat) : LooksSame (.error code) (.error code)
  | other (f f' : OsFile) : f.physical = none → f'.physical = none → LooksSame (.ok f) (.ok f')
  | device (f f' : OsFile) (sb : DeviceSuperblock) : f.physical.isSome → f'.physical.isSome →
      Expected (wholeBlocks f) sb → Expected (wholeBlocks f') sb → LooksSame (.ok f) (.ok f')

end MdSpec
