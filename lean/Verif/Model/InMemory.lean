import Verif.Model.BlockDevice

namespace MdRecover

/-- `InMemoryBlockDevice` (src/block_device/in_memory.rs 5-10). -/
structure InMemory where
  mem : Bytes
  pos : Nat
  blockSize : Nat

namespace InMemory

/-- `InMemoryBlockDevice::new` (src/block_device/in_memory.rs 13-19). -/
def new (mem : Bytes) (blockSize : Nat) : InMemory := { mem, pos := 0, blockSize }

/-- `read_block` (src/block_device/in_memory.rs 34-47).  `&self.mem[offset..][..block_size]` panics when
out of range and `buf.copy_from_slice` panics when the buffer is not of the block size.
`usize` is 64 bits. -/
def readBlock (blockNumber : Nat) (buf : Bytes) : SM (Unit × InMemory) (Nat × Bytes) := fun s =>
  let d := s.2
  (s, if buf.length < d.blockSize then .err .invalidInput
    else match bytePos blockNumber d.blockSize with
      | none => .err .invalidInput
      | some offset =>
        if d.mem.length < offset then .panic
        else if d.mem.length - offset < d.blockSize then .panic
        else if buf.length ≠ d.blockSize then .panic
        else .ok (d.blockSize, slice d.mem offset d.blockSize))

/-- `impl BlockDevice for InMemoryBlockDevice` (src/block_device/in_memory.rs 22-52).  `block_count`
divides by the block size (zero panics). -/
def dev : BlockDev Unit InMemory where
  blockSize d := SM.lift (.ok d.blockSize)
  blockCount d := SM.lift (divP d.mem.length d.blockSize)
  readBlock := readBlock
  tryClone d := SM.lift (.ok d)

/-- `Read::read` (src/block_device/in_memory.rs 55-61).  `&self.mem[self.pos..]` panics if the position is
beyond the end. -/
def read (buf : Bytes) : SM InMemory (Nat × Bytes) := fun d =>
  let available := d.mem.length - d.pos
  let toRead := min buf.length available
  if d.mem.length < d.pos then (d, .panic)
  else ({ d with pos := d.pos + toRead }, .ok (toRead, overwrite buf (slice d.mem d.pos toRead)))

/-- `usize::saturating_add_signed` (Rust core, 64-bit). -/
def saturatingAddSigned (a : Nat) (d : Int) : Nat := min ((a : Int) + d).toNat (U64 - 1)

/-- `Seek::seek` (src/block_device/in_memory.rs 64-78); the `try_into().unwrap()` conversions cannot fail
on 64-bit targets. -/
def seek (pos : SeekFrom) : SM InMemory Nat := fun d =>
  let target := match pos with
    | .start p => p
    | .fromEnd off => saturatingAddSigned d.mem.length off
    | .current off => saturatingAddSigned d.pos off
  let p := min target d.mem.length
  ({ d with pos := p }, .ok p)

end InMemory
end MdRecover
