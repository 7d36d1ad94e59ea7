import Verif.Model.Basic

/-
Assembling wide integers from halves, widened multiplication, and 40-bit times.
Models /repo/src/ext/wide_unsigned.rs, /repo/src/ext/long_mul.rs and
/repo/src/ext/system_time.rs.
-/

namespace MdRecover

/-- `WideUnsigned::from_low_high` (src/ext/wide_unsigned.rs 3-9) for halves of `bits` bits:
8 for `u16`, 16 for `u32`, 32 for `u64`, 64 for `u128` (lines 11-25).  The shift amount is
`size_of::<Half>() * 8`; Rust's `<<` drops bits above the width of the wide type. -/
def fromLowHigh (bits low high : Nat) : Nat :=
  low ||| ((high <<< bits) % 2 ^ (2 * bits))

/-- `LongMul::long_mul` for the unsigned types (src/ext/long_mul.rs 3-9, 11-25): both operands
are widened to `2 * bits` bits and multiplied with `Mul`, which panics on overflow. -/
def longMul (bits a b : Nat) : Res Nat :=
  if a * b < 2 ^ (2 * bits) then .ok (a * b) else .panic

/-- `LongMul::long_mul` for the signed types (src/ext/long_mul.rs 3-9, 27-41). -/
def longMulSigned (bits : Nat) (a b : Int) : Res Int :=
  if -(2 : Int) ^ (2 * bits - 1) ≤ a * b ∧ a * b < (2 : Int) ^ (2 * bits - 1) then .ok (a * b)
  else .panic

/-- `SystemTime::from_low_high` (src/ext/system_time.rs 9-11), as seconds after the Unix
epoch.  `SystemTime + Duration` panics when the sum leaves the range of an `i64` number of
seconds (the range of `SystemTime` on Unix). -/
def systemTimeFromLowHigh (low high : Nat) : Res Nat :=
  if fromLowHigh 32 low high < 2 ^ 63 then .ok (fromLowHigh 32 low high) else .panic

end MdRecover
