import Verif.Spec.Ext4File
import Verif.Model.Ext4Directory

/-! Directory blocks as the kernel documents them, and sequences of calls on blocks and directories.
A record is: number of the inode (4 bytes), length of the record (2), length of the name (1), type (1),
name; then unused bytes up to its length. -/

namespace MdSpec
open MdRecover
variable [Build]

/-- The bytes `e` are one record: its length is that of the bytes, and holds the name. -/
def IsRecord (e : Bytes) : Prop := 8 ≤ e.length ∧ le e 4 2 = e.length ∧ 8 + le e 6 1 ≤ e.length

/-- The bytes `u` are the records `es` back to back, followed by bytes that do not begin with a
record. -/
def Tiles (u : Bytes) (es : List Bytes) : Prop :=
  (∀ e ∈ es, IsRecord e) ∧ ∃ rest, u = es.flatten ++ rest ∧ ∀ n, ¬ IsRecord (rest.take n)

/-- Where the records of a block end: before the 12 bytes with the checksum, if there is one. -/
def recordsEnd (seed : Option Nat) (b : Bytes) : Nat :=
  match seed with
  | none => b.length
  | some _ => b.length - 12

/-- A block is sound if there are no checksums, or its last 12 bytes have the form of a record for no
inode, of the type 0xde, with the checksum of everything before them. -/
def BlockSound (seed : Option Nat) (b : Bytes) : Prop :=
  ∀ s, seed = some s → 12 ≤ b.length ∧
    le b (b.length - 12) 4 = 0 ∧ le b (b.length - 8) 2 = 12 ∧ le b (b.length - 6) 1 = 0 ∧
    le b (b.length - 5) 1 = 0xde ∧
    IsCrc32c (BitVec.ofNat 32 s) (b.take (b.length - 12)) (BitVec.ofNat 32 (le b (b.length - 4) 4))

/-- What the calls on a directory return for one of its blocks: the records of a sound block, an error
for any other. -/
def BlockResults (seed : Option Nat) (b : Bytes) (rs : List (Res (Option DirEntry))) : Prop :=
  (BlockSound seed b ∧ ∃ es, Tiles (b.take (recordsEnd seed b)) es ∧
    rs = es.map fun e => .ok (some ⟨e⟩)) ∨
  (¬ BlockSound seed b ∧ rs = [.err .invalidData])

/-- What the calls on a directory return for one read of its file with the result `r`: the records of a
whole block, an error if the block is not whole or not sound, the error of the read itself; nothing at
the end of the file. -/
def ReadResults (seed : Option Nat) (bs : Nat) (r : Res (Nat × Bytes))
    (rs : List (Res (Option DirEntry))) : Prop :=
  match r with
  | .ok (n, b) =>
    (n = 0 ∧ rs = []) ∨ (n ≠ 0 ∧ n = bs ∧ BlockResults seed b rs) ∨
      (n ≠ 0 ∧ n ≠ bs ∧ rs = [.err .invalidData])
  | .err e => rs = [.err e]
  | .panic => False

/-- The read found the end of the file. -/
def AtEnd (r : Res (Nat × Bytes)) : Prop := ∃ b, r = .ok (0, b)

/-- What `n` calls of `read_next_entry` on a block return. -/
def blockCalls : Nat → DirBlock → Res (List (Option DirEntry))
  | 0, _ => .ok []
  | n + 1, b => do
    let r ← b.readNextEntry
    let rs ← blockCalls n r.2
    pure (r.1 :: rs)

/-- An entry to be written: inode, type, name and unused bytes. -/
structure NewEntry where
  inode : Nat
  fileType : Nat
  name : Bytes
  unused : Bytes

/-- The values fit into their fields. -/
def NewEntry.Fits (e : NewEntry) : Prop :=
  e.inode < 2 ^ 32 ∧ e.fileType < 2 ^ 8 ∧ e.name.length < 2 ^ 8 ∧
    8 + e.name.length + e.unused.length < 2 ^ 16

/-- The bytes of an entry. -/
def NewEntry.encode (e : NewEntry) : Bytes :=
  leBytes 4 e.inode ++ leBytes 2 (8 + e.name.length + e.unused.length) ++ leBytes 1 e.name.length
    ++ leBytes 1 e.fileType ++ e.name ++ e.unused

/-- The bytes with the checksum at the end of a block with the records `u`. -/
def encodeTail (checksum : Nat) : Bytes :=
  leBytes 4 0 ++ leBytes 2 12 ++ leBytes 1 0 ++ leBytes 1 0xde ++ leBytes 4 checksum

section
variable {W D : Type}

/-- A call of `read_next_entry` on a directory returns with `r` (after any number of rounds of its
loops). -/
def EntryReturns (dev : StreamDev W D) (s s' : W × Ext4Directory D) (r : Res (Option DirEntry)) :
    Prop :=
  ∃ fuel, Ext4Directory.readNextEntry dev fuel s = (s', some <$> r)

/-- Calls made one after the other, with their results; none of them panics. -/
inductive DirCalls (dev : StreamDev W D) :
    W × Ext4Directory D → List (Res (Option DirEntry)) → W × Ext4Directory D → Prop where
  | nil (s : W × Ext4Directory D) : DirCalls dev s [] s
  | snoc (s s' s'' : W × Ext4Directory D) (h : List (Res (Option DirEntry)))
      (r : Res (Option DirEntry)) : DirCalls dev s h s' → EntryReturns dev s' s'' r → r ≠ .panic →
      DirCalls dev s (h ++ [r]) s''

end
end MdSpec
