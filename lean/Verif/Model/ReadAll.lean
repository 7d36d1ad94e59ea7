import Verif.Model.IO

namespace MdRecover

/-- The loop of `std::io::Read::read_to_end` (Rust std, `default_read_to_end`): read into the spare capacity of the
vector, which then holds `acc`, until a read returns 0.  How long the spare capacity is at the `i`-th read
depends on the allocator and on std's growth strategy: it is `sizes i`, never 0.  Simplified: the spare
capacity is taken to be zeroed before each read; errors of kind Interrupted, which the loop retries, do not occur
(Model/Interrupted has the whole loop, C94).  The loop need not end if the reader never does;
`none` means that it has not ended after `fuel` reads. -/
def readToEnd {S : Type} (read : Bytes → SM S (Nat × Bytes)) (sizes : Nat → Nat) :
    Nat → Nat → Bytes → SM S (Option Bytes)
  | 0, _, _ => pure none
  | fuel + 1, i, acc => do
    let (n, buf) ← read (zeros (sizes i))
    if n = 0 then pure (some acc)
    else if buf.length < n then SM.panic
    else readToEnd read sizes fuel (i + 1) (acc ++ buf.take n)

/-- `ReadAll::read_all` (src/ext/read_all.rs 8-14). -/
def readAll {S : Type} (read : Bytes → SM S (Nat × Bytes)) (sizes : Nat → Nat) (fuel : Nat) :
    SM S (Option Bytes) := readToEnd read sizes fuel 0 []

end MdRecover
