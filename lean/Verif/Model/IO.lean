import Verif.Model.Basic

/-! State-passing computations: Rust code that has effects on a state `S` (`&mut self`, the operating
system, the devices) and returns `io::Result` or panics.  An error or a panic keeps the effects made
before it. -/

namespace MdRecover

/-- A computation on state `S` (Rust: a function taking `&mut` state and returning `io::Result`). -/
def SM (S α : Type) : Type := S → S × Res α

namespace SM
variable {S α β : Type}

/-- Rust `Ok(a)`. -/
def pure (a : α) : SM S α := fun s => (s, .ok a)

/-- Rust `x?` followed by more code. -/
def bind (x : SM S α) (f : α → SM S β) : SM S β := fun s =>
  match x s with
  | (s', .ok a) => f a s'
  | (s', .err e) => (s', .err e)
  | (s', .panic) => (s', .panic)

instance : Monad (SM S) where
  pure := pure
  bind := bind

/-- A computation without effects (Rust: an expression of type `io::Result`, followed by `?`). -/
def lift (r : Res α) : SM S α := fun s => (s, r)

/-- Rust `return Err(kind.into())`. -/
def fail (e : ErrKind) : SM S α := fun s => (s, .err e)

/-- A Rust panic. -/
def panic : SM S α := fun s => (s, .panic)

/-- Reads the state. -/
def get : SM S S := fun s => (s, .ok s)

/-- Changes the state (assignment to a field of `&mut self`). -/
def modify (f : S → S) : SM S Unit := fun s => (f s, .ok ())

/-- Runs a computation on a part of the state (Rust: a method call on a field). -/
def zoom {T : Type} (view : S → T) (set : S → T → S) (m : SM T α) : SM S α := fun s =>
  ((set s (m (view s)).1), (m (view s)).2)

@[simp] theorem pure_apply (a : α) (s : S) : (Pure.pure a : SM S α) s = (s, .ok a) := rfl
@[simp] theorem lift_apply (r : Res α) (s : S) : (lift r : SM S α) s = (s, r) := rfl
@[simp] theorem fail_apply (e : ErrKind) (s : S) : (fail e : SM S α) s = (s, .err e) := rfl
@[simp] theorem panic_apply (s : S) : (panic : SM S α) s = (s, .panic) := rfl
@[simp] theorem get_apply (s : S) : (get : SM S S) s = (s, .ok s) := rfl
@[simp] theorem modify_apply (f : S → S) (s : S) : modify f s = (f s, .ok ()) := rfl

theorem bind_apply (x : SM S α) (f : α → SM S β) (s : S) :
    (x >>= f) s = match x s with
      | (s', .ok a) => f a s'
      | (s', .err e) => (s', .err e)
      | (s', .panic) => (s', .panic) := rfl

theorem bind_ok {x : SM S α} {s s' : S} {a : α} (f : α → SM S β) (h : x s = (s', .ok a)) :
    (x >>= f) s = f a s' := by rw [bind_apply, h]
theorem bind_err {x : SM S α} {s s' : S} {e : ErrKind} (f : α → SM S β) (h : x s = (s', .err e)) :
    (x >>= f) s = (s', .err e) := by rw [bind_apply, h]
theorem bind_panic {x : SM S α} {s s' : S} (f : α → SM S β) (h : x s = (s', .panic)) :
    (x >>= f) s = (s', .panic) := by rw [bind_apply, h]

end SM

/-- `std::io::Read::read_exact`, the default loop over `read` (Rust std, `default_read_exact`):
read into the rest of the buffer until it is full; `Ok(0)` gives UnexpectedEof.  Simplified: errors of
kind Interrupted, which the loop retries, do not occur (Model/Interrupted has the whole loop, C94).  The first argument bounds the iterations; each
iteration consumes at least one byte, so `buf.length` iterations suffice. -/
def readExactLoop {S : Type} (read : Bytes → SM S (Nat × Bytes)) : Nat → Bytes → SM S Bytes
  | 0, _ => pure []
  | fuel + 1, buf =>
    if buf = [] then pure []
    else do
      let (n, buf') ← read buf
      if n = 0 then SM.fail .unexpectedEof
      else if buf'.length < n then SM.panic
      else do
        let rest ← readExactLoop read fuel (buf'.drop n)
        pure (buf'.take n ++ rest)

/-- `read_exact` (Rust std), giving the filled buffer. -/
def readExact {S : Type} (read : Bytes → SM S (Nat × Bytes)) (buf : Bytes) : SM S Bytes :=
  readExactLoop read buf.length buf

end MdRecover
