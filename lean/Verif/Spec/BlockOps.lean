import Verif.Spec.Stream
import Verif.Spec.Device

/-! Readers used both as byte streams and as block devices: reading a block does not move the stream. -/

namespace MdSpec
open MdRecover

/-- Operations on a collection of readers: those of the byte stream, and those of the block device. -/
inductive BlockOp where
  | stream (op : ReaderOp)
  | blockSize (i : Nat)
  | blockCount (i : Nat)
  | readBlock (i : Nat) (number : Nat) (buf : Bytes)

/-- On a disk `k`, blocks are asked for by a number of a block, with a buffer of the size of a block. -/
def BlockOp.wellTyped (k : Disk) : BlockOp → Prop
  | .stream op => op.wellTyped
  | .readBlock _ b buf => b < k.n ∧ buf.length = k.bs
  | _ => True

/-- Observed outcomes. -/
inductive BlockOut where
  | stream (o : ReaderOut)
  | number (n : Nat)

/-- One operation on readers of disk `k` with cursors `ps`; `F` says whether device errors may occur.  Only the
operations of the byte stream move cursors. -/
inductive BlockStep (F : Prop) (k : Disk) : List Nat → BlockOp → BlockOut → List Nat → Prop
  | stream {ps op o ps'} : StreamStep F k.content ps op o ps' → BlockStep F k ps (.stream op) (.stream o) ps'
  | blockSize {ps i p} : ps[i]? = some p → BlockStep F k ps (.blockSize i) (.number k.bs) ps
  | blockCount {ps i p} : ps[i]? = some p → BlockStep F k ps (.blockCount i) (.number k.n) ps
  | readBlock {ps i p b buf} : ps[i]? = some p → BlockStep F k ps (.readBlock i b buf)
      (.stream (.data k.bs ((k.content.drop (b * k.bs)).take k.bs))) ps
  | fails {ps op e} : F → BlockStep F k ps op (.stream (.error e)) ps
  | sizeNone {ps i} : ps[i]? = none → BlockStep F k ps (.blockSize i) (.stream .noSuchReader) ps
  | countNone {ps i} : ps[i]? = none → BlockStep F k ps (.blockCount i) (.stream .noSuchReader) ps
  | readNone {ps i b buf} : ps[i]? = none → BlockStep F k ps (.readBlock i b buf) (.stream .noSuchReader) ps

/-- A sequence of operations with their outcomes. -/
inductive BlockRun (F : Prop) (k : Disk) : List Nat → List BlockOp → List BlockOut → List Nat → Prop
  | nil {ps} : BlockRun F k ps [] [] ps
  | cons {ps ps' ps'' op o ops os} : BlockStep F k ps op o ps' → BlockRun F k ps' ops os ps'' →
      BlockRun F k ps (op :: ops) (o :: os) ps''

end MdSpec
