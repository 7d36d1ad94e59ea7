import Verif.Model.Native
import Verif.Model.Diagnosis

/-! The program.  Models /repo/src/main.rs 29-47 and `MdDevice::open_path`, from the paths on the command
line (see `Verif.Model.CommandLine`) to the diagnosis, or the errors by path.  For its text see
`Verif.Model.Report`. -/

namespace MdRecover

/-- A file as `File::open` finds it: its bytes, and its physical block size if it is a block device
(src/block_device/native.rs 15-17). -/
structure OsFile where
  content : Bytes
  physical : Option Nat

/-- The state of the process (for src/main.rs 29-47): the kernel, the next unused open file description, and
the counter of device ids. -/
structure System where
  os : NativeKernel
  nextOfd : Nat
  nextId : Nat

/-- `NativeBlockDevice::open_path` (src/block_device/native.rs 15-23): a new open file description at
position 0.  `fs` gives what is at each path, or the error code of `open`. -/
def NativeDev.openPath (fs : Bytes → Except Nat OsFile) (path : Bytes) : SM System NativeDev := fun s =>
  match fs path with
  | .error code => (s, .err (.os code))
  | .ok f =>
    ({ s with
        os := { s.os with
          files := { s.os.files with
            offset := fun i => if i = s.nextOfd then 0 else s.os.files.offset i } }
        nextOfd := s.nextOfd + 1 },
      .ok ⟨s.nextOfd, f.content, f.physical⟩)

/-- `MdDevice::open_path` (src/md/device/device.rs 29-32). -/
def MdDevice.openPath (fs : Bytes → Except Nat OsFile) (path : Bytes) :
    SM System (MdDevice NativeDev) := do
  let d ← NativeDev.openPath fs path
  SM.zoom (fun s => ((s.os, d), s.nextId)) (fun s t => { s with os := t.1.1, nextId := t.2 })
    (MdDevice.fromBlockDevice NativeDev.streamDev (some path))

/-- `MdDevice::open_path(path).map_err(|err| (path, err))` (src/main.rs 35) as a value. -/
def SM.keepError {S α : Type} (path : Bytes) (m : SM S α) : SM S (Except (Bytes × ErrKind) α) := fun s =>
  match m s with
  | (s', .ok a) => (s', .ok (.ok a))
  | (s', .err e) => (s', .ok (.error (path, e)))
  | (s', .panic) => (s', .panic)

/-- The mapped iterator (src/main.rs 32-35): every path is opened, in order. -/
def openPaths (fs : Bytes → Except Nat OsFile) :
    List Bytes → SM System (List (Except (Bytes × ErrKind) (MdDevice NativeDev)))
  | [] => pure []
  | path :: rest => do
    let r ← SM.keepError path (MdDevice.openPath fs path)
    let rs ← openPaths fs rest
    pure (r :: rs)

/-- `partition_result` (crate itertools, called at src/main.rs 36). -/
def partitionResult {E A : Type} : List (Except E A) → List A × List E
  | [] => ([], [])
  | .ok a :: rest => (a :: (partitionResult rest).1, (partitionResult rest).2)
  | .error e :: rest => ((partitionResult rest).1, e :: (partitionResult rest).2)

/-- What is printed (src/main.rs 41, 43-45). -/
inductive Printed where
  | diagnosis (d : Diagnosis)
  | errors (l : List (Bytes × ErrKind))

/-- `main` (src/main.rs 29-47).  `ord` and `ord'` are the iteration orders of the hash maps. -/
def mainProgram (ord ord' : IterOrder) (fs : Bytes → Except Nat OsFile) (paths : List Bytes) :
    SM System Printed := do
  let rs ← openPaths fs paths
  let (devices, errors) := partitionResult rs
  if errors.isEmpty then pure (.diagnosis (ArrayDef.diagnose ord' (MdArray.open ord devices)))
  else pure (.errors errors)

end MdRecover
