/-
Basic vocabulary of the model: outcomes, machine arithmetic, byte strings.

The definitions here model features of Rust and of its standard library rather than
code of /repo; each comment says which.
-/

namespace MdRecover

/-- A byte string: `[u8]`, `Vec<u8>`, `&[u8]`, `OsStr` (Rust core types). -/
abbrev Bytes := List UInt8

/-- The `std::io::ErrorKind` values that occur in /repo (`InvalidInput`, `InvalidData`,
`Unsupported`, `UnexpectedEof`), and `os n` for errors passed on from the operating system
or from a device supplied by the caller. -/
inductive ErrKind where
  | invalidInput
  | invalidData
  | unsupported
  | unexpectedEof
  | os (code : Nat)
  deriving DecidableEq, Repr

/-- Outcome of a Rust function returning `io::Result<T>`: `Ok`, `Err`, or a panic
(out-of-range slice, `unwrap` of `None`, division by zero, overflow in a build with overflow checks). -/
inductive Res (α : Type) where
  | ok (a : α)
  | err (e : ErrKind)
  | panic
  deriving DecidableEq, Repr

namespace Res

/-- Sequencing: the `?` operator of Rust; a panic also ends the computation. -/
def bind {α β : Type} : Res α → (α → Res β) → Res β
  | ok a, f => f a
  | err e, _ => err e
  | panic, _ => panic

instance : Monad Res where
  pure := ok
  bind := bind

/-- `Option::ok_or(kind)?`. -/
def ofOption {α : Type} (e : ErrKind) : Option α → Res α
  | some a => ok a
  | none => err e

/-- `Result::ok()`-style view: the value if the outcome is `Ok`. -/
def toOption {α : Type} : Res α → Option α
  | ok a => some a
  | _ => none

/-- The outcome is `Ok`. -/
def isOk {α : Type} : Res α → Bool
  | ok _ => true
  | _ => false

@[simp] theorem bind_ok {α β : Type} (a : α) (f : α → Res β) : (ok a >>= f) = f a := rfl
@[simp] theorem bind_err {α β : Type} (e : ErrKind) (f : α → Res β) :
    ((err e : Res α) >>= f) = err e := rfl
@[simp] theorem bind_panic {α β : Type} (f : α → Res β) : ((panic : Res α) >>= f) = panic := rfl
@[simp] theorem pure_eq {α : Type} (a : α) : (pure a : Res α) = ok a := rfl
@[simp] theorem ofOption_some {α : Type} (e : ErrKind) (a : α) : ofOption e (some a) = ok a := rfl
@[simp] theorem ofOption_none {α : Type} (e : ErrKind) :
    ofOption e (none : Option α) = err e := rfl

end Res

/-- Number of `u64` values, 2^64. -/
notation "U64" => (18446744073709551616 : Nat)
/-- Number of `u32` values, 2^32. -/
notation "U32" => (4294967296 : Nat)
/-- Number of `u16` values, 2^16. -/
notation "U16" => (65536 : Nat)

/-- `u64::checked_add`. -/
def checkedAdd64 (a b : Nat) : Option Nat := if a + b < U64 then some (a + b) else none
/-- `u32::checked_add`. -/
def checkedAdd32 (a b : Nat) : Option Nat := if a + b < U32 then some (a + b) else none
/-- `u64::checked_mul`. -/
def checkedMul64 (a b : Nat) : Option Nat := if a * b < U64 then some (a * b) else none
/-- `checked_sub` of any unsigned type. -/
def checkedSub (a b : Nat) : Option Nat := if b ≤ a then some (a - b) else none
/-- `checked_div` of any unsigned type. -/
def checkedDiv (a b : Nat) : Option Nat := if b = 0 then none else some (a / b)
/-- `checked_rem` of any unsigned type. -/
def checkedRem (a b : Nat) : Option Nat := if b = 0 then none else some (a % b)
/-- `u64 -> u32` `try_into().ok()`. -/
def toU32 (a : Nat) : Option Nat := if a < U32 then some a else none
/-- `u64::checked_add_signed`. -/
def checkedAddSigned64 (a : Nat) (d : Int) : Option Nat :=
  if 0 ≤ (a : Int) + d ∧ (a : Int) + d < (U64 : Int) then some ((a : Int) + d).toNat else none
/-- How the program was compiled: with checks for arithmetic overflow (`cargo build`, `cargo test`) or
without (`cargo build --release`; /repo/Cargo.toml sets no `overflow-checks`). -/
class Build where
  overflowChecks : Bool
/-- A build with overflow checks; meant wherever no build is mentioned. -/
@[reducible] instance checkedBuild : Build := ⟨true⟩
/-- A build without overflow checks. -/
@[reducible] def releaseBuild : Build := ⟨false⟩
/-- Plain `+` on `u32`: overflow panics or wraps around. -/
def add32 [Build] (a b : Nat) : Res Nat :=
  if a + b < U32 then .ok (a + b)
  else if Build.overflowChecks then .panic else .ok ((a + b) % U32)
/-- Plain `*` on `u64`/`usize`: overflow panics or wraps around. -/
def mul64 [Build] (a b : Nat) : Res Nat :=
  if a * b < U64 then .ok (a * b)
  else if Build.overflowChecks then .panic else .ok (a * b % U64)
/-- Plain `-` on `usize` whose result is used as a slice bound: if negative, it panics, or wraps around to
a bound that is out of range, at which the slice panics. -/
def subP (a b : Nat) : Res Nat := if b ≤ a then .ok (a - b) else .panic
/-- Plain `/` on unsigned integers: division by zero panics (all builds). -/
def divP (a b : Nat) : Res Nat := if b = 0 then .panic else .ok (a / b)

/-- The `n` bytes of `b` from offset `off` on (as many as exist): contents of `&b[off..][..n]`
when that slice is in range. -/
def slice (b : Bytes) (off n : Nat) : Bytes := (b.drop off).take n

/-- Little-endian value of a byte string (`uN::from_le_bytes`). -/
def leNat : Bytes → Nat
  | [] => 0
  | b :: bs => b.toNat + 256 * leNat bs

/-- Big-endian value of a byte string (`uN::from_be_bytes`). -/
def beNat (b : Bytes) : Nat := leNat b.reverse

/-- Little-endian encoding of `v` in `n` bytes (`uN::to_le_bytes`). -/
def leBytes : Nat → Nat → Bytes
  | 0, _ => []
  | n + 1, v => UInt8.ofNat (v % 256) :: leBytes n (v / 256)

/-- Big-endian encoding of `v` in `n` bytes (`uN::to_be_bytes`). -/
def beBytes (n v : Nat) : Bytes := (leBytes n v).reverse

/-- A buffer of `n` zero bytes: `vec![0; n]`. -/
def zeros (n : Nat) : Bytes := List.replicate n 0

/-- `buf[..src.len()].copy_from_slice(src)`: `src` replaces the beginning of `buf`. -/
def overwrite (buf src : Bytes) : Bytes := src ++ buf.drop src.length

end MdRecover
