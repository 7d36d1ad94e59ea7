import Verif.Model.BlockDevice

namespace MdRecover

/-- `BlockDeviceReader` (src/block_device/reader.rs 9-13). -/
structure Reader (D : Type) where
  device : D
  blockPos : Nat
  bytePos : Nat

namespace Reader
variable {W D : Type}

/-- `BlockDeviceReader::new` (src/block_device/reader.rs 16-22). -/
def new (device : D) : Reader D := { device, blockPos := 0, bytePos := 0 }

/-- A `&mut self` method of the underlying device called through the reader's field. -/
def onDevice {α : Type} (m : SM (W × D) α) : SM (W × Reader D) α :=
  SM.zoom (fun s => (s.1, s.2.device)) (fun s t => (t.1, { s.2 with device := t.2 })) m

/-- A `&self` method of the underlying device called through the reader's field. -/
def onWorld {α : Type} (m : D → SM W α) : SM (W × Reader D) α := fun s =>
  (((m s.2.device s.1).1, s.2), (m s.2.device s.1).2)

/-- `<BlockDeviceReader as BlockDevice>::block_size` (src/block_device/reader.rs 26-28). -/
def blockSize (dev : BlockDev W D) (r : Reader D) : SM W Nat := dev.blockSize r.device

/-- `<BlockDeviceReader as BlockDevice>::block_count` (src/block_device/reader.rs 30-32). -/
def blockCount (dev : BlockDev W D) (r : Reader D) : SM W Nat := dev.blockCount r.device

/-- `<BlockDeviceReader as BlockDevice>::read_block` (src/block_device/reader.rs 34-36). -/
def readBlock (dev : BlockDev W D) (blockNumber : Nat) (buf : Bytes) :
    SM (W × Reader D) (Nat × Bytes) := onDevice (dev.readBlock blockNumber buf)

/-- `<BlockDeviceReader as BlockDevice>::try_clone` (src/block_device/reader.rs 38-44). -/
def tryClone (dev : BlockDev W D) (r : Reader D) : SM W (Reader D) := do
  let d ← dev.tryClone r.device
  pure { r with device := d }

/-- The position update at src/block_device/reader.rs 58-62, from `self`, the block size and the
number of bytes copied. -/
def advance (r : Reader D) (bs k : Nat) : Reader D :=
  if bs ≤ r.bytePos + k then { r with bytePos := 0, blockPos := r.blockPos + 1 }
  else { r with bytePos := r.bytePos + k }

/-- The copy at src/block_device/reader.rs 56-63, after the block was read.  If `block_size -
byte_pos` is negative, it panics, or (without overflow checks) the slice `block[byte_pos..]` does.
`block_pos + 1` cannot overflow as `block_pos < block_count`. -/
def copyOut (bs : Nat) (block buf : Bytes) : SM (W × Reader D) (Nat × Bytes) := do
  let (_, r) ← SM.get
  let room ← SM.lift (subP bs r.bytePos)
  let k := min buf.length room
  SM.modify (fun s => (s.1, s.2.advance bs k))
  pure (k, overwrite buf (slice block r.bytePos k))

/-- `<BlockDeviceReader as Read>::read` (src/block_device/reader.rs 48-64). -/
def read (dev : BlockDev W D) (buf : Bytes) : SM (W × Reader D) (Nat × Bytes) := do
  let (_, r) ← SM.get
  let n ← onWorld dev.blockCount
  if n ≤ r.blockPos then pure (0, buf)
  else do
    let bs ← onWorld dev.blockSize
    let (_, block) ← onDevice (dev.readBlock r.blockPos (zeros bs))
    copyOut bs block buf

/-- The target position of a seek, src/block_device/reader.rs 69-91. -/
def seekTarget (dev : BlockDev W D) (pos : SeekFrom) : SM (W × Reader D) Nat :=
  match pos with
  | .start p => pure p
  | .fromEnd off => do
      let n ← onWorld dev.blockCount
      let bs ← onWorld dev.blockSize
      let size ← SM.lift (Res.ofOption .invalidData (sizeBytes n bs))
      SM.lift (Res.ofOption .invalidInput (checkedAddSigned64 size off))
  | .current off => do
      let (_, r) ← SM.get
      let bs ← onWorld dev.blockSize
      let start ← SM.lift (Res.ofOption .invalidData (MdRecover.bytePos r.blockPos bs))
      let cur ← SM.lift (Res.ofOption .invalidData (checkedAdd64 start r.bytePos))
      SM.lift (Res.ofOption .invalidInput (checkedAddSigned64 cur off))

/-- `<BlockDeviceReader as Seek>::seek` (src/block_device/reader.rs 68-97).  `div_rem` by a zero block
size panics.  `usize` is 64 bits, so the conversion of the remainder cannot fail. -/
def seek (dev : BlockDev W D) (pos : SeekFrom) : SM (W × Reader D) Nat := do
  let newPos ← seekTarget dev pos
  let bs ← onWorld dev.blockSize
  let blockPos ← SM.lift (divP newPos bs)
  SM.modify (fun s => (s.1, { s.2 with blockPos := blockPos, bytePos := newPos % bs }))
  pure newPos

end Reader
end MdRecover
