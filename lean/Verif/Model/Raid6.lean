import Verif.Model.Units

namespace MdRecover

/-- `Raid6Algorithm` (src/md/raid6/algorithm.rs 5-35). -/
inductive Raid6Algorithm where
  | leftAsymmetric
  | rightAsymmetric
  | leftSymmetric
  | rightSymmetric
  | parity0
  | parityN
  | rotating0Restart
  | rotatingNRestart
  | rotatingNContinue
  | leftAsymmetric6
  | rightAsymmetric6
  | leftSymmetric6
  | rightSymmetric6
  | parity06
  deriving DecidableEq, Repr

namespace Raid6Algorithm

/-- `Raid6Algorithm::from_layout` (src/md/raid6/algorithm.rs 38-56). -/
def fromLayout : Nat → Option Raid6Algorithm
  | 0 => some leftAsymmetric
  | 1 => some rightAsymmetric
  | 2 => some leftSymmetric
  | 3 => some rightSymmetric
  | 4 => some parity0
  | 5 => some parityN
  | 8 => some rotating0Restart
  | 9 => some rotatingNRestart
  | 10 => some rotatingNContinue
  | 16 => some leftAsymmetric6
  | 17 => some rightAsymmetric6
  | 18 => some leftSymmetric6
  | 19 => some rightSymmetric6
  | 20 => some parity06
  | _ => none

/-- P device, the expression at src/md/raid6/algorithm.rs 70-103. -/
def p64 (alg : Raid6Algorithm) (raidDeviceCount dataDeviceCount stripe : Nat) : Option Nat :=
  match alg with
  | leftAsymmetric | leftSymmetric | rotatingNContinue => do
      checkedSub (← checkedSub raidDeviceCount 1) (← checkedRem stripe raidDeviceCount)
  | rightAsymmetric | rightSymmetric | rotating0Restart => checkedRem stripe raidDeviceCount
  | parity0 => some 0
  | parityN => some dataDeviceCount
  | rotatingNRestart => do
      checkedSub (← checkedSub raidDeviceCount 1)
        (← checkedRem (← checkedAdd64 stripe 1) raidDeviceCount)
  | leftAsymmetric6 | leftSymmetric6 => do
      checkedSub dataDeviceCount (← checkedRem stripe (← checkedSub raidDeviceCount 1))
  | rightAsymmetric6 | rightSymmetric6 => do
      checkedRem stripe (← checkedSub raidDeviceCount 1)
  | parity06 => some 0

/-- Q device, the expression at src/md/raid6/algorithm.rs 109-129. -/
def q64 (alg : Raid6Algorithm) (raidDeviceCount dataDeviceCount p : Nat) : Option Nat :=
  match alg with
  | leftAsymmetric | rightAsymmetric | leftSymmetric | rightSymmetric
  | rotating0Restart | rotatingNRestart => do
      checkedRem (← checkedAdd64 p 1) raidDeviceCount
  | parity0 => some 1
  | parityN => checkedAdd64 dataDeviceCount 1
  | rotatingNContinue => do
      checkedRem (← checkedSub (← checkedAdd64 p raidDeviceCount) 1) raidDeviceCount
  | leftAsymmetric6 | rightAsymmetric6 | leftSymmetric6 | rightSymmetric6 | parity06 =>
      checkedSub raidDeviceCount 1

/-- Data device, the expression at src/md/raid6/algorithm.rs 135-175. -/
def data64 (alg : Raid6Algorithm) (raidDeviceCount dataDevice p q : Nat) : Option Nat :=
  match alg with
  | leftAsymmetric | rightAsymmetric | rotating0Restart | rotatingNRestart =>
      checkedAdd64 dataDevice (if q = 0 then 1 else if dataDevice ≥ p then 2 else 0)
  | leftSymmetric | rightSymmetric => do
      checkedRem (← checkedAdd64 (← checkedAdd64 p 2) dataDevice) raidDeviceCount
  | parity0 => checkedAdd64 dataDevice 2
  | parityN => some dataDevice
  | rotatingNContinue => do
      checkedRem (← checkedAdd64 (← checkedAdd64 p 1) dataDevice) raidDeviceCount
  | leftAsymmetric6 | rightAsymmetric6 =>
      checkedAdd64 dataDevice (if dataDevice ≥ p then 1 else 0)
  | leftSymmetric6 | rightSymmetric6 => do
      checkedRem (← checkedAdd64 (← checkedAdd64 p 1) dataDevice) (← checkedSub raidDeviceCount 1)
  | parity06 => checkedAdd64 dataDevice 1

/-- `Raid6Algorithm::compute_sector` (src/md/raid6/algorithm.rs 58-192).
Result: (sector in device, P device, Q device, data device). -/
def computeSector (alg : Raid6Algorithm) (sector sectorsPerChunk raidDeviceCount : Nat) :
    Option (Nat × Nat × Nat × Nat) := do
  let (chunk, sectorInChunk) ← inChunk sector sectorsPerChunk
  let dataDeviceCount ← checkedSub raidDeviceCount 2
  let (dataDevice, stripe) ← dataDeviceAndStripe chunk dataDeviceCount
  let p ← toU32 (← p64 alg raidDeviceCount dataDeviceCount stripe)
  let q ← toU32 (← q64 alg raidDeviceCount dataDeviceCount p)
  let data ← toU32 (← data64 alg raidDeviceCount dataDevice p q)
  -- lines 180-184
  let sectorInDevice ← checkedAdd64 (← checkedMul64 stripe sectorsPerChunk) sectorInChunk
  some (sectorInDevice, p, q, data)

/-- The callback `read_sector_of_device` of `read_sector` (src/md/raid6/algorithm.rs 199-202), an
`FnMut(DeviceNumber, SectorNumber, &mut [u8]) -> io::Result<usize>`: from its state, a device, a
sector and the buffer it gives a new state, the returned count and the buffer afterwards. -/
abbrev ReadSectorFn (σ : Type) := σ → Nat → Nat → Bytes → σ × Res (Nat × Bytes)

/-- The loop `(0..raid_device_count).map(..).collect::<Result<Vec<_>,_>>()`
(src/md/raid6/algorithm.rs 208-218): devices in the given order, stopping at the first failure. -/
def readBuffers {σ : Type} (f : ReadSectorFn σ) (sector : Nat) :
    σ → List Nat → σ × Res (List Bytes)
  | s, [] => (s, .ok [])
  | s, d :: ds =>
    match f s d sector (zeros 512) with
    | (s', .ok (n, buf)) =>
      if n ≠ buf.length then (s', .err .invalidData)
      else match readBuffers f sector s' ds with
        | (s'', .ok bufs) => (s'', .ok (buf :: bufs))
        | (s'', r) => (s'', r)
    | (s', .err e) => (s', .err e)
    | (s', .panic) => (s', .panic)

/-- The buffers that are neither P nor Q, in device order (src/md/raid6/algorithm.rs 226-236). -/
def dataBuffers (bufs : List Bytes) (p q : Nat) : List Bytes :=
  (bufs.zipIdx.filter (fun (_, i) => !(i == p || i == q))).map (·.1)

/-- Body of the parity loop for byte `i` (src/md/raid6/algorithm.rs 238-242).  `buffer[i]` is in
range because each buffer has 512 bytes; out of range reads as 0 here. -/
def xorAt (bufs : List Bytes) (i : Nat) : UInt8 :=
  bufs.foldl (fun acc b => acc ^^^ b.getD i 0) 0

/-- `Raid6Algorithm::read_sector` (src/md/raid6/algorithm.rs 194-247). -/
def readSector {σ : Type} (alg : Raid6Algorithm) (sector sectorsPerChunk raidDeviceCount : Nat)
    (f : ReadSectorFn σ) (s : σ) : σ × Res Bytes :=
  match computeSector alg sector sectorsPerChunk raidDeviceCount with
  | none => (s, .err .invalidInput)
  | some (sectorInDevice, p, q, data) =>
    match readBuffers f sectorInDevice s (List.range raidDeviceCount) with
    | (s', .err e) => (s', .err e)
    | (s', .panic) => (s', .panic)
    | (s', .ok bufs) =>
      match bufs[p]? with
      | none => (s', .err .invalidData)
      | some pbuf =>
        if (List.range 512).all (fun i => xorAt (dataBuffers bufs p q) i == pbuf.getD i 0) then
          match bufs[data]? with
          | some b => (s', .ok b)
          | none => (s', .panic)
        else (s', .err .invalidData)

end Raid6Algorithm
end MdRecover
