import Verif.Model.HMap
import Verif.Model.MdDevice
import Verif.Model.Reader

namespace MdRecover

/-- `MdArrayDefinition` (src/md/definition.rs 14-22). -/
structure ArrayDef (D : Type) where
  format : Option MdFormat
  newFormat : Option MdFormat
  devices : HMap Nat (MdDevice D)
  inactive : List (MdDevice D)

/-- Rust `Iterator::reduce(f).flatten()` for an iterator of options. -/
def reduceFlatten {α : Type} (f : Option α → Option α → Option α) : List (Option α) → Option α
  | [] => none
  | a :: l => l.foldl f a

namespace MdArray
variable {W D : Type}

/-- The merge of two roles (src/md/array.rs 42-52). -/
def mergeRole (left right : Role) : Option Role :=
  if left.isSpare || right.isInvalid || left.isFaulty then some right
  else if right.isSpare || left.isInvalid || right.isFaulty || left = right then some left
  else none

/-- `zip_longest` with the merge, collected into an `Option<Vec<_>>` (src/md/array.rs 38-56). -/
def mergeTables : List Role → List Role → Option (List Role)
  | [], rs => some rs
  | ls, [] => some ls
  | l :: ls, r :: rs =>
    match mergeRole l r, mergeTables ls rs with
    | some x, some xs => some (x :: xs)
    | _, _ => none

/-- The closure given to `reduce` (src/md/array.rs 35-59). -/
def mergeOptions (acc roles : Option (List Role)) : Option (List Role) :=
  acc.bind fun a => roles.bind fun r => mergeTables a r

/-- The merged role table (src/md/array.rs 27-60). -/
def mergedRoles (devices : List (MdDevice D)) : Option (List Role) :=
  reduceFlatten mergeOptions
    (devices.map fun d => d.superblock.asOption.map (·.deviceRoles))

/-- The closures of the format reductions (src/md/array.rs 64, 69). -/
def agree (a b : Option MdFormat) : Option MdFormat := if a = b then a else none

/-- The device number of a device (src/md/array.rs 73-83). -/
def deviceNumber (roles : Option (List Role)) (d : MdDevice D) : Option Nat :=
  (d.superblock.asOption.map (·.deviceRoleIndex)).bind fun index =>
    roles.bind fun roles => (roles[index]?).bind Role.deviceNumber

/-- The left results of `partition_map` (src/md/array.rs 87-92). -/
def activeOf : Option Nat × List (MdDevice D) → Option (Nat × MdDevice D)
  | (some n, [d]) => some (n, d)
  | _ => none

/-- The right results of `partition_map` (src/md/array.rs 87-92). -/
def inactiveOf : Option Nat × List (MdDevice D) → Option (List (MdDevice D))
  | (some _, [_]) => none
  | (_, ds) => some ds

/-- The devices by number (src/md/array.rs 71-86), iterated in an unspecified order. -/
def groups (ord : IterOrder) (devices : List (MdDevice D)) : List (Option Nat × List (MdDevice D)) :=
  ord _ (HMap.fromMultiIter (devices.map fun d => (deviceNumber (mergedRoles devices) d, d)))

/-- `MdArray::open` (src/md/array.rs 25-104). -/
def «open» (ord : IterOrder) (devices : List (MdDevice D)) : ArrayDef D where
  format := reduceFlatten agree (devices.map fun d => MdFormat.fromSuperblock d.superblock)
  newFormat := reduceFlatten agree
    (devices.map fun d => MdFormat.fromSuperblockReshapeStatus d.superblock)
  devices := HMap.ofList ((groups ord devices).filterMap activeOf)
  inactive := ((groups ord devices).filterMap inactiveOf).flatten

/-- The format in use (src/md/array.rs 121-126 and 138-143). -/
def formatInUse (a : ArrayDef D) : Option MdFormat := a.newFormat.or a.format

/-- `block_count` (src/md/array.rs 119-130). -/
def blockCount (a : ArrayDef D) : Res Nat := do
  let f ← Res.ofOption .invalidData (formatInUse a)
  Res.ofOption .invalidData f.dataSectorCount

/-- Runs a computation with a local variable that is dropped at the end. -/
def _root_.MdRecover.SM.withLocal {S T α : Type} (init : T) (m : SM (S × T) α) : SM S α := fun s =>
  ((m (s, init)).1.1, (m (s, init)).2)

/-- The last part of the closure passed to `read_sector` (src/md/array.rs 161-168): read one sector of a
member through a fresh reader. -/
def readThrough (dev : BlockDev W (MdDevice D)) (sector : Nat) (buf : Bytes) :
    SM (W × Reader (MdDevice D)) (Nat × Bytes) := do
  let p ← SM.lift (Res.ofOption .invalidInput (checkedMul64 sector 512))
  let _ ← Reader.seek dev (.start p)
  let b ← readExact (Reader.read dev) (buf.take 512)
  pure (512, overwrite buf b)

/-- The closure passed to `read_sector` (src/md/array.rs 149-169). -/
def memberRead (dev : BlockDev W D) (devices : HMap Nat (MdDevice D)) (deviceNumber sector : Nat)
    (buf : Bytes) : SM W (Nat × Bytes) :=
  if buf.length < 512 then SM.fail .invalidInput
  else do
    let m ← SM.lift (Res.ofOption .invalidInput (devices.get deviceNumber))
    let device ← (MdDevice.dev dev).tryClone m
    SM.withLocal (Reader.new device) (readThrough (MdDevice.dev dev) sector buf)

/-- `read_block` (src/md/array.rs 132-173).  `buf.copy_from_slice(&block)` panics unless the buffer has the
length of the block. -/
def readBlock (dev : BlockDev W D) (blockNumber : Nat) (buf : Bytes) :
    SM (W × ArrayDef D) (Nat × Bytes) := fun s =>
  if buf.length < 512 then (s, .err .invalidInput)
  else match formatInUse s.2 with
    | none => (s, .err .invalidData)
    | some f =>
      match f.algorithm.readSector blockNumber f.chunkSize f.deviceCount
        (fun w d sec b => memberRead dev s.2.devices d sec b w) s.1 with
      | (w, .ok block) =>
        if buf.length ≠ block.length then ((w, s.2), .panic) else ((w, s.2), .ok (512, block))
      | (w, .err e) => ((w, s.2), .err e)
      | (w, .panic) => ((w, s.2), .panic)

/-- `impl BlockDevice for MdArray` (src/md/array.rs 111-180): block size 115-117; a clone shares the
definition, 175-179. -/
def dev (dev : BlockDev W D) : BlockDev W (ArrayDef D) where
  blockSize _ := SM.lift (.ok 512)
  blockCount a := SM.lift (blockCount a)
  readBlock := readBlock dev
  tryClone a := SM.lift (.ok a)

end MdArray
end MdRecover
