import Verif.Model.BlockDevice

/-! A byte stream: a cursor `pos` over fixed content. -/

namespace MdSpec
open MdRecover

/-- A read into `buf` at `pos` that returned `k`, left `buf'` in the buffer and moved to `pos'`. -/
structure StreamRead (content : Bytes) (pos : Nat) (buf : Bytes) (k : Nat) (buf' : Bytes)
    (pos' : Nat) : Prop where
  le : k ≤ buf.length
  moved : pos' = pos + k
  data : buf' = (content.drop pos).take k ++ buf.drop k
  inside : 0 < k → pos + k ≤ content.length
  zero : k = 0 → buf = [] ∨ content.length ≤ pos

/-- Where a seek should go. -/
def seekGoal (content : Bytes) (pos : Nat) : SeekFrom → Int
  | .start p => p
  | .fromEnd off => content.length + off
  | .current off => pos + off

/-- Operations on a collection of readers; `clone i` adds a copy of reader `i` at the end. -/
inductive ReaderOp where
  | read (i : Nat) (buf : Bytes)
  | seek (i : Nat) (target : SeekFrom)
  | clone (i : Nat)

/-- Seek targets from the start are `u64` values. -/
def ReaderOp.wellTyped : ReaderOp → Prop
  | .seek _ (.start p) => p < U64
  | _ => True

/-- Observed outcomes. -/
inductive ReaderOut where
  | data (k : Nat) (buf : Bytes)
  | position (p : Nat)
  | cloned
  | error (e : ErrKind)
  | panicked
  | noSuchReader

/-- One operation on streams with cursors `ps`; `F` says whether device errors may occur.  An error
never moves a cursor; a seek is rejected iff the goal is not a u64; nothing panics. -/
inductive StreamStep (F : Prop) (content : Bytes) :
    List Nat → ReaderOp → ReaderOut → List Nat → Prop
  | read {ps i buf k buf' p p'} : ps[i]? = some p → StreamRead content p buf k buf' p' →
      StreamStep F content ps (.read i buf) (.data k buf') (ps.set i p')
  | seek {ps i t p q} : ps[i]? = some p → seekGoal content p t = (q : Nat) → q < U64 →
      StreamStep F content ps (.seek i t) (.position q) (ps.set i q)
  | seekRejected {ps i t p} : ps[i]? = some p →
      ¬ (0 ≤ seekGoal content p t ∧ seekGoal content p t < (U64 : Int)) →
      StreamStep F content ps (.seek i t) (.error .invalidInput) ps
  | clone {ps i p} : ps[i]? = some p → StreamStep F content ps (.clone i) .cloned (ps ++ [p])
  | fails {ps op e} : F → StreamStep F content ps op (.error e) ps
  | readNone {ps i buf} : ps[i]? = none → StreamStep F content ps (.read i buf) .noSuchReader ps
  | seekNone {ps i t} : ps[i]? = none → StreamStep F content ps (.seek i t) .noSuchReader ps
  | cloneNone {ps i} : ps[i]? = none → StreamStep F content ps (.clone i) .noSuchReader ps

/-- A sequence of operations with their outcomes. -/
inductive StreamRun (F : Prop) (content : Bytes) :
    List Nat → List ReaderOp → List ReaderOut → List Nat → Prop
  | nil {ps} : StreamRun F content ps [] [] ps
  | cons {ps ps' ps'' op o ops os} : StreamStep F content ps op o ps' →
      StreamRun F content ps' ops os ps'' →
      StreamRun F content ps (op :: ops) (o :: os) ps''

end MdSpec
