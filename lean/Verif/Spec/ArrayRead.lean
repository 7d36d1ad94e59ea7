import Verif.Model.Layout
import Verif.Spec.Device
import Verif.Spec.Parity

/-! What it means for member disks to hold a RAID6 array, in terms of the layout pictures and the parity
equation only. -/

namespace MdSpec
open MdRecover

/-- Sector `s` of a disk. -/
def Disk.sector (k : Disk) (s : Nat) : Bytes := slice k.content (s * 512) 512

/-- The disks `members 0`, ..., `members (n - 1)` hold, from their first sector, a RAID6 array of layout
number `L` with `size` sectors per member in chunks of `c` sectors, whose logical content is
`content`. -/
structure Raid6Set (L n c size : Nat) (members : Nat → Disk) (content : Bytes) : Prop where
  devices : 3 ≤ n
  devices_lt : n < U32
  chunk : 0 < c
  whole_chunks : c ∣ size
  bytes_lt : size * (n - 2) * 512 < U64
  length : content.length = size * (n - 2) * 512
  member_size : ∀ d, d < n → size * 512 ≤ (members d).content.length
  /-- In every stripe, the member holding data chunk `i` holds that part of the content. -/
  data : ∀ b, b < size * (n - 2) → ∀ row d, raid6Row L n (b / c / (n - 2)) = some row →
    row[d]? = some (.D (b / c % (n - 2))) →
    slice content (b * 512) 512 = (members d).sector (b / c / (n - 2) * c + b % c)
  /-- In every stripe, P is the XOR of the data. -/
  parity : ∀ s, s < size → ∀ row, raid6Row L n (s / c) = some row →
    PConsistent row (fun d s => (members d).sector s) s

end MdSpec
