import Verif.Spec.Retry

/-! What a device is asked for: a device that keeps a log, and the order in which reading a file from its beginning
to its end comes to the blocks of the volume. -/

namespace MdSpec
open MdRecover

/-- A request to a device: a seek, or a read into a buffer of some length, with the number of bytes it returned (0
if it failed). -/
inductive Asked where
  | seek (target : SeekFrom)
  | read (length returned : Nat)
  deriving DecidableEq, Repr

section
variable {W D : Type}

/-- The number of bytes a read returned. -/
def returnedBytes : Res (Nat × Bytes) → Nat
  | .ok (n, _) => n
  | _ => 0

/-- The same device, with a log of the seeks and reads made through any handle. -/
def loggedDev (dev : StreamDev W D) : StreamDev (W × List Asked) D where
  blockSize d := SM.zoom Prod.fst (fun s w => (w, s.2)) (dev.blockSize d)
  blockCount d := SM.zoom Prod.fst (fun s w => (w, s.2)) (dev.blockCount d)
  readBlock n buf := SM.zoom (fun s => (s.1.1, s.2)) (fun s t => ((t.1, s.1.2), t.2)) (dev.readBlock n buf)
  tryClone d := SM.zoom Prod.fst (fun s w => (w, s.2)) (dev.tryClone d)
  read buf := fun s => match dev.read buf (s.1.1, s.2) with
    | ((w, d), r) => (((w, s.1.2 ++ [.read buf.length (returnedBytes r)]), d), r)
  seek pos := fun s => match dev.seek pos (s.1.1, s.2) with
    | ((w, d), r) => (((w, s.1.2 ++ [.seek pos]), d), r)

end

/-- The number of bytes returned by the reads of a log. -/
def bytesReturned (log : List Asked) : Nat :=
  (log.map fun a => match a with
    | .read _ n => n
    | .seek _ => 0).sum

/-- The requests are, for the blocks `xs` one after the other: one seek to the beginning of the block, and reads
that return no more than `m` bytes together, none of which asks for more. -/
inductive Asks (bs m : Nat) : List Nat → List Asked → Prop where
  | nil : Asks bs m [] []
  | cons (x : Nat) (xs : List Nat) (reads rest : List Asked) :
      (∀ a ∈ reads, ∃ l n, a = .read l n ∧ l ≤ m) → bytesReturned reads ≤ m → Asks bs m xs rest →
      Asks bs m (x :: xs) (.seek (.start (x * bs)) :: (reads ++ rest))

/-- The blocks of the volume to which reading a file comes, from entry `i` of the node on: for an entry of a leaf
the blocks of the extent, for an entry of another node the block with the child and then what is below it.  (Extents
of 32768 blocks are left out: they are taken for empty ones, C67.) -/
inductive ReadOrder (c : Bytes) (bs : Nat) : Bytes → Nat → List Nat → Prop where
  | done (node : Bytes) : ReadOrder c bs node (nodeEntries node) []
  | extent (node : Bytes) (i : Nat) (xs : List Nat) : nodeDepth node = 0 → i < nodeEntries node →
      le (nodeEntry node i) 4 2 ≠ 0x8000 → ReadOrder c bs node (i + 1) xs →
      ReadOrder c bs node i
        ((List.range (extentLen (nodeEntry node i))).map (extentStart (nodeEntry node i) + ·) ++ xs)
  | index (node : Bytes) (i : Nat) (sub xs : List Nat) : nodeDepth node ≠ 0 → i < nodeEntries node →
      ReadOrder c bs (blockOf c bs (indexChild (nodeEntry node i))) 0 sub → ReadOrder c bs node (i + 1) xs →
      ReadOrder c bs node i (indexChild (nodeEntry node i) :: sub ++ xs)

end MdSpec
