import Verif.Model.StreamDevice
import Verif.Model.SuperblockV0
import Verif.Model.SuperblockV1

namespace MdRecover

/-- `MdDeviceId` (src/md/device/id.rs 7-11): equality and hash use the index only
(src/md/device/id.rs 32-42). -/
structure MdDeviceId where
  internalIndex : Nat
  userReference : Option Bytes

/-- `PartialEq for MdDeviceId` (src/md/device/id.rs 32-36). -/
def MdDeviceId.eq (a b : MdDeviceId) : Bool := a.internalIndex = b.internalIndex

/-- `MdDeviceId::next_index` (src/md/device/id.rs 23-29) as one atomic step on the static counter
`NEXT_INDEX` (line 13): `fetch_add` wraps around, and the largest index panics after having been taken. -/
def nextIndex : SM Nat Nat := fun n =>
  ((n + 1) % U64, if n = U64 - 1 then .panic else .ok n)

/-- `MdDeviceId::new` (src/md/device/id.rs 16-21). -/
def MdDeviceId.new (userReference : Option Bytes) : SM Nat MdDeviceId := do
  let i ← nextIndex
  pure { internalIndex := i, userReference }

/-- `MdDevice<D>` (src/md/device/device.rs 11-18). -/
structure MdDevice (D : Type) where
  id : MdDeviceId
  superblock : DeviceSuperblock
  device : D

/-- `if let Ok(x) = f()`: an error is dropped (its effects remain), a panic is not. -/
def SM.attempt {S α : Type} (m : SM S α) : SM S (Option α) := fun s =>
  match m s with
  | (s', .ok a) => (s', .ok (some a))
  | (s', .err _) => (s', .ok none)
  | (s', .panic) => (s', .panic)

namespace MdDevice
variable {W D : Type}

/-- The three version-1 probes (src/md/device/device.rs 58): minor version and byte offset, `!7` being the
64-bit complement.  The subtraction does not underflow since size is at least 12288. -/
def v1Probes (size : Nat) : List (Nat × Nat) :=
  [(2, 8 <<< 9), (1, 0), (0, (((size >>> 9) - 16) &&& (U64 - 8)) <<< 9)]

/-- The version-0 probe offset (src/md/device/device.rs 70). -/
def v0Probe (size : Nat) : Nat := (size &&& (U64 - 65536)) - 65536

/-- The loop over the version-1 probes (src/md/device/device.rs 58-67): a failing seek ends the whole
operation, a failing read does not. -/
def probeV1 (dev : StreamDev W D) : List (Nat × Nat) → SM (W × D) (Option SuperblockV1)
  | [] => pure none
  | (minor, offset) :: rest => do
    let _ ← dev.seek (.start offset)
    let r ← SM.attempt (SuperblockV1.read dev.read minor)
    match r with
    | some s => pure (some s)
    | none => probeV1 dev rest

/-- The version-0 probe (src/md/device/device.rs 69-78). -/
def probeV0 (dev : StreamDev W D) (size : Nat) : SM (W × D) (Option SuperblockV0) :=
  if 65536 ≤ size then do
    let _ ← dev.seek (.start (v0Probe size))
    SM.attempt (SuperblockV0.read dev.read)
  else pure none

/-- The probing part of `from_block_device` (src/md/device/device.rs 50-84). -/
def findSuperblock (dev : StreamDev W D) (size : Nat) : SM (W × D) DeviceSuperblock :=
  if size < 12288 then pure .tooSmall
  else do
    let r ← probeV1 dev (v1Probes size)
    match r with
    | some s => pure (.superblock s.toSuperblock)
    | none => do
      let r ← probeV0 dev size
      match r with
      | some s => pure (.superblock s.toSuperblock)
      | none => pure .missing

/-- Device size (src/md/device/device.rs 43-46). -/
def deviceSize (dev : StreamDev W D) : SM (W × D) Nat := do
  let (_, d) ← SM.get
  let n ← SM.zoom Prod.fst (fun s w => (w, s.2)) (dev.blockCount d)
  let bs ← SM.zoom Prod.fst (fun s w => (w, s.2)) (dev.blockSize d)
  SM.lift (Res.ofOption .invalidInput (sizeBytes n bs))

/-- `MdDevice::from_block_device` (src/md/device/device.rs 39-85).  The state is the world, the device
being probed, and the id counter. -/
def fromBlockDevice (dev : StreamDev W D) (userReference : Option Bytes) :
    SM ((W × D) × Nat) (MdDevice D) := do
  let size ← SM.zoom Prod.fst (fun s t => (t, s.2)) (deviceSize dev)
  let id ← SM.zoom Prod.snd (fun s t => (s.1, t)) (MdDeviceId.new userReference)
  let sb ← SM.zoom Prod.fst (fun s t => (t, s.2)) (findSuperblock dev size)
  let s ← SM.get
  pure { id, superblock := sb, device := s.1.2 }

/-- `impl BlockDevice for MdDevice<D>` (src/md/device/device.rs 88-111): everything is passed on. -/
def dev (dev : BlockDev W D) : BlockDev W (MdDevice D) where
  blockSize m := dev.blockSize m.device
  blockCount m := dev.blockCount m.device
  readBlock n buf := SM.zoom (fun s => (s.1, s.2.device))
    (fun s t => (t.1, { s.2 with device := t.2 })) (dev.readBlock n buf)
  tryClone m := do
    let d ← dev.tryClone m.device
    pure { m with device := d }

end MdDevice
end MdRecover
