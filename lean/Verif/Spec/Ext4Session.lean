import Verif.Spec.Volume
import Verif.Model.Ext4Directory

/-! A program that uses the ext4 part of the API: it begins with one device and makes any calls, in any
order, on the handles it has: devices, filesystems, files and directories.  Only what it sees is
recorded. -/

namespace MdSpec
open MdRecover
variable [Build]

/-- A volume of which it is known how far beyond the end it can be positioned: with a content of `n`
bytes, seeking from the start up to `lim n` fails only if the device fails (`F`), and farther is refused
as an invalid argument.  In-memory devices and readers of block devices accept every position, Linux
refuses positions beyond the end of a block device. -/
structure SeekableVolume {W D : Type} (F : Prop) (lim : Nat → Nat) (dev : StreamDev W D) (G : W → Prop)
    (Is : D → Bytes → Prop) (At : W → D → Nat → Prop) : Prop extends VolumeSpec F dev G Is At where
  seekAccepted : ∀ {w d c}, G w → Is d c → ∀ p, p < U64 → p ≤ lim c.length →
    (∃ q, (dev.seek (.start p) (w, d)).2 = .ok q) ∨ (F ∧ ∃ e, (dev.seek (.start p) (w, d)).2 = .err e)
  seekRefused : ∀ {w d c}, G w → Is d c → ∀ p, p < U64 → lim c.length < p →
    (dev.seek (.start p) (w, d)).2 = .err .invalidInput ∨
      (F ∧ ∃ e, (dev.seek (.start p) (w, d)).2 = .err e)

/-- Every position of 64 bits is accepted. -/
def noLimit : Nat → Nat := fun _ => U64

/-- What a program holds. -/
inductive Handle (D : Type) where
  | device (d : D)
  | fs (fs : Ext4Fs D)
  | file (f : Ext4File D)
  | dir (d : Ext4Directory D)

/-- Calls on a handle.  `rounds` bounds the loops of the calls that might not return. -/
inductive SessionCall where
  /-- `try_clone` of a device or of a filesystem: a new handle -/
  | clone
  /-- `seek` from the start of the device, and `read_exact` -/
  | bytes (pos : Nat) (buf : Bytes)
  /-- `Ext4Fs::open` of a clone of the device: a new handle -/
  | mount
  | blockSize
  | inode (number : Nat)
  | rootInode
  | block (number : Nat) (buf : Bytes)
  /-- `open_file`: a new handle -/
  | openFile (number : Nat)
  | fileSize
  | nextBlock (rounds : Nat) (buf : Bytes)
  | nextEntry (rounds : Nat)

/-- Positions are `u64` values. -/
def SessionCall.wellTyped : SessionCall → Prop
  | .bytes p _ => p < U64
  | _ => True

/-- What the program sees of a call. -/
inductive SessionOut where
  | done
  | bytes (b : Bytes)
  | number (n : Nat)
  | inode (i : Inode)
  | newFile
  | newDirectory
  | otherType (t : FileType)
  | data (n : Nat) (buf : Bytes)
  | entry (e : Option DirEntry)
  /-- the call has not returned within the bound -/
  | running
  | error (e : ErrKind)
  | panicked
  | noSuchHandle
  deriving DecidableEq

section
variable {W D : Type}

/-- A call on a filesystem. -/
def onFsHandle (fs : Ext4Fs D) (m : SM (W × Ext4Fs D) (SessionOut × List (Handle D))) :
    SM (W × Handle D) (SessionOut × List (Handle D)) :=
  SM.zoom (fun s => (s.1, fs)) (fun _ t => (t.1, .fs t.2)) m

/-- A call on a file. -/
def onFileHandle (f : Ext4File D) (m : SM (W × Ext4File D) (SessionOut × List (Handle D))) :
    SM (W × Handle D) (SessionOut × List (Handle D)) :=
  SM.zoom (fun s => (s.1, f)) (fun _ t => (t.1, .file t.2)) m

/-- A call on a directory. -/
def onDirHandle (d : Ext4Directory D)
    (m : SM (W × Ext4Directory D) (SessionOut × List (Handle D))) :
    SM (W × Handle D) (SessionOut × List (Handle D)) :=
  SM.zoom (fun s => (s.1, d)) (fun _ t => (t.1, .dir t.2)) m

/-- A call on a device. -/
def onDeviceHandle (d : D) (m : SM (W × D) (SessionOut × List (Handle D))) :
    SM (W × Handle D) (SessionOut × List (Handle D)) :=
  SM.zoom (fun s => (s.1, d)) (fun _ t => (t.1, .device t.2)) m

/-- A call that needs only the world. -/
def onWorld {S α : Type} (m : SM W α) : SM (W × S) α :=
  SM.zoom Prod.fst (fun s w => (w, s.2)) m

/-- What the program gets from `open_file`. -/
def ofOpened : OpenedFile D → SessionOut × List (Handle D)
  | .directory d => (.newDirectory, [.dir d])
  | .regularFile f => (.newFile, [.file f])
  | .unsupported t => (.otherType t, [])

/-- What the program gets from `read_next_block`. -/
def ofBlock : Option (Nat × Bytes) → SessionOut
  | none => .running
  | some (n, b) => .data n b

/-- What the program gets from `read_next_entry`. -/
def ofEntry : Option (Option DirEntry) → SessionOut
  | none => .running
  | some e => .entry e

/-- A call on a handle: the outcome and the new handles.  Calls that the handle does not have give
`noSuchHandle`. -/
def handleCall (dev : StreamDev W D) (call : SessionCall) (h : Handle D) :
    SM (W × Handle D) (SessionOut × List (Handle D)) :=
  match call, h with
  | .clone, .device d => onDeviceHandle d do
      let d' ← onWorld (dev.tryClone d)
      pure (.done, [.device d'])
  | .bytes p buf, .device d => onDeviceHandle d do
      let _ ← dev.seek (.start p)
      let b ← readExact dev.read buf
      pure (.bytes b, [])
  | .mount, .device d => onDeviceHandle d do
      let d' ← onWorld (dev.tryClone d)
      let fs ← onWorld (Ext4Fs.open dev d')
      pure (.done, [.fs fs])
  | .clone, .fs fs => onFsHandle fs do
      let fs' ← onWorld (Ext4Fs.tryClone dev fs)
      pure (.done, [.fs fs'])
  | .blockSize, .fs fs => onFsHandle fs do
      let n ← SM.lift fs.blockSize
      pure (.number n, [])
  | .inode n, .fs fs => onFsHandle fs do
      let i ← Ext4Fs.readInode dev n
      pure (.inode i, [])
  | .rootInode, .fs fs => onFsHandle fs do
      let i ← Ext4Fs.readRootInode dev
      pure (.inode i, [])
  | .block n buf, .fs fs => onFsHandle fs do
      let b ← Ext4Fs.readBlock dev n buf
      pure (.bytes b, [])
  | .openFile n, .fs fs => onFsHandle fs do
      let f ← Ext4Fs.openFile dev n
      pure (ofOpened f)
  | .fileSize, .file f => onFileHandle f do
      pure (.number f.fileSizeBytes, [])
  | .nextBlock rounds buf, .file f => onFileHandle f do
      let r ← Ext4File.readNextBlock dev rounds buf
      pure (ofBlock r, [])
  | .nextEntry rounds, .dir d => onDirHandle d do
      let r ← Ext4Directory.readNextEntry dev rounds
      pure (ofEntry r, [])
  | _, _ => pure (.noSuchHandle, [])

/-- A call on handle `i` of the program: new handles come last. -/
def sessionStep (dev : StreamDev W D) (i : Nat) (call : SessionCall) (s : W × List (Handle D)) :
    (W × List (Handle D)) × SessionOut :=
  match s.2[i]? with
  | none => (s, .noSuchHandle)
  | some h =>
    match handleCall dev call h (s.1, h) with
    | ((w, h'), .ok (o, new)) => ((w, s.2.set i h' ++ new), o)
    | ((w, h'), .err e) => ((w, s.2.set i h'), .error e)
    | ((w, h'), .panic) => ((w, s.2.set i h'), .panicked)

/-- What a program sees of its calls. -/
def sessionRun (dev : StreamDev W D) : W × List (Handle D) → List (Nat × SessionCall) →
    List SessionOut
  | _, [] => []
  | s, (i, call) :: rest =>
    (sessionStep dev i call s).2 :: sessionRun dev (sessionStep dev i call s).1 rest

/-- The program after its calls. -/
def sessionEnd (dev : StreamDev W D) : W × List (Handle D) → List (Nat × SessionCall) →
    W × List (Handle D)
  | s, [] => s
  | s, (i, call) :: rest => sessionEnd dev (sessionStep dev i call s).1 rest

/-- The outcomes of the calls on handle `j`. -/
def outcomesOf (j : Nat) (ops : List (Nat × SessionCall)) (outs : List SessionOut) :
    List SessionOut :=
  ((ops.zip outs).filter fun x => x.1.1 = j).map Prod.snd

end
end MdSpec
