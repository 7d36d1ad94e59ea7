import Verif.Model.StreamDevice

/-! A device that records which bytes it is asked for. -/

namespace MdSpec
open MdRecover

/-- The position of the stream, and the byte ranges `(start, length)` that reads were asked to fill. -/
structure Track where
  cursor : Nat
  asked : List (Nat × Nat)

/-- Any device with a record of what it is asked for.  A successful `seek(Start(p))` puts the cursor at `p`
(any other seek puts it outside every range: it is not used here), a read that returns `k` advances it by
`k`. -/
def tracked {W D : Type} (dev : StreamDev W D) : StreamDev (W × Track) D where
  blockSize d := SM.zoom Prod.fst (fun s w => (w, s.2)) (dev.blockSize d)
  blockCount d := SM.zoom Prod.fst (fun s w => (w, s.2)) (dev.blockCount d)
  readBlock b buf := SM.zoom (fun s => (s.1.1, s.2)) (fun s t => ((t.1, s.1.2), t.2))
    (dev.readBlock b buf)
  tryClone d := SM.zoom Prod.fst (fun s w => (w, s.2)) (dev.tryClone d)
  seek target := fun s =>
    let r := dev.seek target (s.1.1, s.2)
    let cursor := match target with
      | .start p => p
      | _ => U64
    (((r.1.1, { s.1.2 with cursor := cursor }), r.1.2), r.2)
  read buf := fun s =>
    let r := dev.read buf (s.1.1, s.2)
    let moved := match r.2 with
      | .ok (k, _) => k
      | _ => 0
    (((r.1.1, { cursor := s.1.2.cursor + moved,
                asked := s.1.2.asked ++ [(s.1.2.cursor, buf.length)] }), r.1.2), r.2)

/-- Reading into a buffer does not change its length (in Rust a `&mut [u8]` cannot be resized). -/
def KeepsLength {W D : Type} (dev : StreamDev W D) : Prop :=
  ∀ buf s s' k buf', dev.read buf s = (s', .ok (k, buf')) → buf'.length = buf.length

end MdSpec
