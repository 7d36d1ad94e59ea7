import Verif.Spec.ArrayRead

/-! Disks that contain anything, read as the members of a RAID6 array. -/

namespace MdSpec
open MdRecover

/-- The disks `members 0`, ..., `members (n - 1)`, whatever they contain, are read as a RAID6 array of layout number
`L` with `size` sectors per member in chunks of `c` sectors: `content` is what is in the places for data.  That is
`Raid6Set` without anything about the parity. -/
structure Raid6Members (L n c size : Nat) (members : Nat → Disk) (content : Bytes) : Prop where
  devices : 3 ≤ n
  devices_lt : n < U32
  chunk : 0 < c
  whole_chunks : c ∣ size
  bytes_lt : size * (n - 2) * 512 < U64
  length : content.length = size * (n - 2) * 512
  member_size : ∀ d, d < n → size * 512 ≤ (members d).content.length
  /-- In every stripe, the member in the place of data chunk `i` holds that part of the content. -/
  data : ∀ b, b < size * (n - 2) → ∀ row d, raid6Row L n (b / c / (n - 2)) = some row →
    row[d]? = some (.D (b / c % (n - 2))) →
    slice content (b * 512) 512 = (members d).sector (b / c / (n - 2) * c + b % c)

/-- In the stripe of sector `b` of the array, in the same sector of the members, P is the XOR of the data. -/
def StripeSound (L n c : Nat) (members : Nat → Disk) (b : Nat) : Prop :=
  ∀ row, raid6Row L n (b / c / (n - 2)) = some row →
    PConsistent row (fun d s => (members d).sector s) (b / c / (n - 2) * c + b % c)

end MdSpec
