import Verif.Model.FileDevice
import Verif.Model.ReadAll

/-! The loops of the standard library over `read` with their handling of interruptions by signals, which the
other modules leave out. -/

namespace MdRecover

/-- EINTR on Linux; `io::Error::is_interrupted` (Rust std). -/
def eintr : Nat := 4

/-- `std::io::Read::read_exact` (Rust std, `default_read_exact`): as `readExactLoop`, but a read that was
interrupted is made again.  `none` means that the loop has not ended after `fuel` reads. -/
def readExactRetry {S : Type} (read : Bytes → SM S (Nat × Bytes)) : Nat → Bytes → SM S (Option Bytes)
  | 0, buf => pure (if buf = [] then some [] else none)
  | fuel + 1, buf => fun s =>
    if buf = [] then (s, .ok (some []))
    else
      match read buf s with
      | (s', .ok (n, buf')) =>
        if n = 0 then (s', .err .unexpectedEof)
        else if buf'.length < n then (s', .panic)
        else (do
          let rest ← readExactRetry read fuel (buf'.drop n)
          pure (rest.map fun r => buf'.take n ++ r) : SM S (Option Bytes)) s'
      | (s', .err e) => if e = .os eintr then readExactRetry read fuel buf s' else (s', .err e)
      | (s', .panic) => (s', .panic)

/-- `std::io::Read::read_to_end` (Rust std, `default_read_to_end`): as `readToEnd`, but a read that was
interrupted is made again, into the same spare capacity. -/
def readToEndRetry {S : Type} (read : Bytes → SM S (Nat × Bytes)) (sizes : Nat → Nat) :
    Nat → Nat → Bytes → SM S (Option Bytes)
  | 0, _, _ => pure none
  | fuel + 1, i, acc => fun s =>
    match read (zeros (sizes i)) s with
    | (s', .ok (n, buf)) =>
      if n = 0 then (s', .ok (some acc))
      else if buf.length < n then (s', .panic)
      else readToEndRetry read sizes fuel (i + 1) (acc ++ buf.take n) s'
    | (s', .err e) => if e = .os eintr then readToEndRetry read sizes fuel i acc s' else (s', .err e)
    | (s', .panic) => (s', .panic)

namespace FileDev

/-- `InternalFile::read_block` (src/block_device/internal.rs 11-29), as `readBlock`, with `read_exact` that
makes interrupted reads again. -/
def readBlockRetry (fuel blockNumber : Nat) (buf : Bytes) : SM (Kernel × FileDev) (Option (Nat × Bytes)) := do
  let (_, d) ← SM.get
  if buf.length < d.blockSize then SM.fail .invalidInput
  else do
    let p ← SM.lift (Res.ofOption .invalidData (bytePos blockNumber d.blockSize))
    let _ ← seekRaw (.start p)
    let block ← readExactRetry readRaw fuel (buf.take d.blockSize)
    pure (block.map fun b => (d.blockSize, overwrite buf b))

end FileDev
end MdRecover
