import Verif.Spec.Ext4Open
import Verif.Spec.Ext4Directory

/-! Files and directories as the bytes of a volume `c` describe them, paths from one to the other, and a
program that follows a path and reads the file at its end, with calls of the API only. -/

namespace MdSpec
open MdRecover

/-- Metadata has checksums: bit 10 of `s_feature_ro_compat`. -/
def HasChecksums (c : Bytes) : Prop := le (sbOf c) 0x64 4 / 2 ^ 10 % 2 = 1

/-- The seed of all checksums: `s_checksum_seed`, if bit 13 of `s_feature_incompat` is set, else the checksum
of the UUID. -/
def VolumeSeed (c : Bytes) (s : BitVec 32) : Prop :=
  (le (sbOf c) 0x60 4 / 2 ^ 13 % 2 = 1 → s = BitVec.ofNat 32 (le (sbOf c) 0x270 4)) ∧
  (¬ le (sbOf c) 0x60 4 / 2 ^ 13 % 2 = 1 →
    IsCrc32c (BitVec.allOnes 32) (((sbOf c).drop 0x68).take 16) s)

/-- The seed of the checksums of the blocks of inode `n`: the checksum of its number and generation. -/
def InodeSeed (c : Bytes) (n : Nat) (seed : Option Nat) : Prop :=
  (HasChecksums c → ∃ s t : BitVec 32, VolumeSeed c s ∧
    IsCrc32c s (leBytes 4 n ++ ((inodeBytes c n).drop 0x64).take 4) t ∧ seed = some t.toNat) ∧
  (¬ HasChecksums c → seed = none)

/-- Inode `n` is a regular file with the content `content`: blocks `xs`, without gaps and all written, cut at
the size. -/
structure FileAt (c : Bytes) (n : Nat) (content : Bytes) : Prop where
  readable : InodeReadable c n
  type : typeNumber c n = 8
  extents : hasExtents c n
  blocks : ∃ xs, Contiguous c (blockSizeOf (sbOf c)) (rootNode c n) 0 0 xs ∧
    (∀ x ∈ xs, BlockInside c (blockSizeOf (sbOf c)) x) ∧ xs.length < 2 ^ 32 ∧
    sizeOf c n ≤ xs.length * blockSizeOf (sbOf c) ∧
    (xs ≠ [] → xs.length * blockSizeOf (sbOf c) < sizeOf c n + blockSizeOf (sbOf c)) ∧
    content = (xs.flatMap (blockOf c (blockSizeOf (sbOf c)))).take (sizeOf c n)

/-- Inode `n` is a directory with the records `records`: those of its blocks `xs`, all sound. -/
structure DirectoryAt (c : Bytes) (n : Nat) (records : List Bytes) : Prop where
  readable : InodeReadable c n
  type : typeNumber c n = 4
  notHashed : ¬ flagBit c n 12
  extents : hasExtents c n
  blocks : ∃ xs ess seed, Contiguous c (blockSizeOf (sbOf c)) (rootNode c n) 0 0 xs ∧
    (∀ x ∈ xs, BlockInside c (blockSizeOf (sbOf c)) x) ∧ xs.length < 2 ^ 32 ∧
    sizeOf c n = xs.length * blockSizeOf (sbOf c) ∧ InodeSeed c n seed ∧
    List.Forall₂ (fun x es => BlockSound seed (blockOf c (blockSizeOf (sbOf c)) x) ∧
      Tiles ((blockOf c (blockSizeOf (sbOf c)) x).take
        (recordsEnd seed (blockOf c (blockSizeOf (sbOf c)) x))) es) xs ess ∧
    records = ess.flatten

/-- The inode of a record; zero if it is not in use. -/
def recordInode (e : Bytes) : Nat := le e 0 4
/-- The name in a record. -/
def recordName (e : Bytes) : Bytes := (e.drop 8).take (le e 6 1)

/-- A record in use with this name. -/
def Names (name e : Bytes) : Prop := recordInode e ≠ 0 ∧ recordName e = name

/-- The name contains no zero byte, and a zero byte or the end of the record follows it. -/
def CleanName (e : Bytes) : Prop :=
  0 ∉ recordName e ∧ (8 + le e 6 1 = e.length ∨ e[8 + le e 6 1]? = some 0)

/-- From inode `n`, the path `names` leads to inode `m`: each name is that of a record in use of the directory
reached, and of no earlier one; these records in use have the property `P`. -/
inductive Leads (c : Bytes) (P : Bytes → Prop) : Nat → List Bytes → Nat → Prop where
  | here (n : Nat) : Leads c P n [] n
  | into (n m : Nat) (name : Bytes) (names : List Bytes) (before after : List Bytes) (e : Bytes) :
      DirectoryAt c n (before ++ e :: after) → Names name e → (∀ x ∈ before, ¬ Names name x) →
      (∀ x ∈ before ++ [e], recordInode x ≠ 0 → P x) → Leads c P (recordInode e) names m →
      Leads c P n (name :: names) m

/-! ## The program -/

section
variable [Build] {W D : Type}

/-- What the program ends with. -/
inductive Found where
  | content (b : Bytes)
  /-- a directory on the way has no such entry -/
  | missing
  /-- something other than directories on the way and a regular file at the end -/
  | otherType
  /-- it has not finished within the bound -/
  | running
  deriving DecidableEq

/-- What is at the end of a path from the root, inode 2, all names on the way being clean: a regular file; or a
directory on the way has no such entry; or something else is in the place of a directory or of the file. -/
inductive Says (c : Bytes) (names : List Bytes) : Found → Prop where
  | content (m : Nat) (b : Bytes) : Leads c CleanName 2 names m → FileAt c m b → Says c names (.content b)
  | missing (front rest : List Bytes) (name : Bytes) (n : Nat) (records : List Bytes) :
      names = front ++ name :: rest → Leads c CleanName 2 front n → DirectoryAt c n records →
      (∀ x ∈ records, recordInode x ≠ 0 → CleanName x) → (∀ x ∈ records, ¬ Names name x) →
      Says c names .missing
  | notADirectory (front rest : List Bytes) (name : Bytes) (n : Nat) :
      names = front ++ name :: rest → Leads c CleanName 2 front n → InodeReadable c n →
      typeNumber c n ≠ 4 → (typeNumber c n = 8 → hasExtents c n) → Says c names .otherType
  | notAFile (m : Nat) : Leads c CleanName 2 names m → InodeReadable c m → typeNumber c m ≠ 8 →
      (typeNumber c m = 4 → hasExtents c m ∧ ¬ flagBit c m 12) → Says c names .otherType

/-- Use a file or directory just opened. -/
def onHandle {X S α : Type} (x : X) (m : SM (W × X) α) : SM (W × S) α :=
  SM.zoom (fun s => (s.1, x)) (fun s t => (t.1, s.2)) m

/-- Read entries until there is one in use with the name: its inode.  `none`: not finished. -/
def lookUp (dev : StreamDev W D) (rounds : Nat) (name : Bytes) :
    Nat → SM (W × Ext4Directory D) (Option (Option Nat))
  | 0 => pure none
  | k + 1 => do
    match ← Ext4Directory.readNextEntry dev rounds with
    | none => pure none
    | some none => pure (some none)
    | some (some e) =>
      if e.inode ≠ 0 ∧ e.name.bytes = name then pure (some (some e.inode))
      else lookUp dev rounds name k

/-- Read blocks until a read returns zero. -/
def readBlocks (dev : StreamDev W D) (rounds blockSize : Nat) :
    Nat → SM (W × Ext4File D) (Option Bytes)
  | 0 => pure none
  | k + 1 => do
    match ← Ext4File.readNextBlock dev rounds (zeros blockSize) with
    | none => pure none
    | some (n, b) =>
      if n = 0 then pure (some [])
      else do
        let rest ← readBlocks dev rounds blockSize k
        pure (rest.map (b.take n ++ ·))

/-- Follow the path from inode `n`. -/
def follow (dev : StreamDev W D) (rounds : Nat) : List Bytes → Nat → SM (W × Ext4Fs D) Found
  | [], n => do
    match ← Ext4Fs.openFile dev n with
    | .regularFile f => do
      let bs ← SM.lift f.blockSize
      let r ← onHandle f (readBlocks dev rounds bs rounds)
      pure (match r with
        | some b => .content b
        | none => .running)
    | _ => pure .otherType
  | name :: names, n => do
    match ← Ext4Fs.openFile dev n with
    | .directory d => do
      match ← onHandle d (lookUp dev rounds name rounds) with
      | none => pure .running
      | some none => pure .missing
      | some (some m) => follow dev rounds names m
    | _ => pure .otherType

/-- Open the filesystem on a device, and follow the path from the root, inode 2.  No loop runs more than
`rounds` times. -/
def readPath (dev : StreamDev W D) (rounds : Nat) (d : D) (names : List Bytes) : SM W Found := do
  let fs ← Ext4Fs.open dev d
  SM.withLocal fs (follow dev rounds names 2)

end
end MdSpec
