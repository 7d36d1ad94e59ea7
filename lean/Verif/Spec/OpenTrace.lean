import Verif.Spec.Trace
import Verif.Spec.Unreadable

/-! Where a device is looked at for a superblock, in what order. -/

namespace MdSpec
open MdRecover

/-- The places at which a device of `size` bytes may have a superblock, in the order in which they count: 1.2, 1.1,
1.0 and, from 64 KiB on, 0.90. -/
inductive ProbePlaces : Nat → List Nat → Prop
  | tooSmall {size} : size < 12288 → ProbePlaces size []
  | small {size o} : 12288 ≤ size → size < 65536 → Place10 size o → ProbePlaces size [4096, 0, o]
  | large {size o p} : 65536 ≤ size → Place10 size o → Place090 size p → ProbePlaces size [4096, 0, o, p]

end MdSpec
