import Verif.Spec.Crc
import Verif.Spec.Ext4Path

/-! Files and directories given as a table, and a volume on which they are written, in the simplest way the
format of ext4 allows: one block group, inodes of 128 bytes, at most four extents for a file, one entry in a block
of a directory; without checksums, or with checksums of the superblock and of the blocks of directories (those of
the group descriptor and of the inodes are left zero, see C99).  Field names are those of the kernel's documentation
of the disk format. -/

namespace MdSpec
open MdRecover

/-- A regular file with its content, or a directory with its entries: names, and places in the table. -/
inductive Node where
  | file (content : Bytes)
  | dir (entries : List (Bytes × Nat))

/-- What is at the end of a path that begins at place `n` of the table: the first entry with the name counts. -/
def atPath (t : List Node) : Nat → List Bytes → Found
  | n, [] =>
    match t[n]? with
    | some (.file b) => .content b
    | _ => .otherType
  | n, name :: names =>
    match t[n]? with
    | some (.dir es) =>
      match es.find? (fun e => e.1 == name) with
      | some e => atPath t e.2 names
      | none => .missing
    | _ => .otherType

/-- Integers of given widths (in bytes), one after the other. -/
def fields (fs : List (Nat × Nat)) : Bytes := (fs.map fun f => leBytes f.1 f.2).flatten

namespace Mkfs

/-- How a volume is written: the size of its blocks, as a power of two times 1024, and, if metadata has checksums,
the UUID (`s_uuid`, as a number), from which the checksums start. -/
structure Form where
  log : Nat
  uuid : Option Nat := none

/-- The form without checksums. -/
instance (n : Nat) : OfNat Form n := ⟨⟨n, none⟩⟩

/-- Size of a block. -/
def bs (k : Form) : Nat := 1024 * 2 ^ k.log

/-- Block of the superblock: with blocks of 1024 bytes, block 1. -/
def firstData (k : Form) : Nat := if k.log = 0 then 1 else 0

/-- Blocks of the inode table: one inode is not used, and there is one for each place of the table. -/
def tableBlocks (k : Form) (t : List Node) : Nat := (t.length + 1) / (8 * 2 ^ k.log) + 1

/-- Number of inodes: the inode table is full of them. -/
def inodes (k : Form) (t : List Node) : Nat := tableBlocks k t * (8 * 2 ^ k.log)

/-- The checksum CRC-32C, continued from `initial`. -/
def crc (initial : BitVec 32) (b : Bytes) : BitVec 32 := crcBitSerial initial (bitsOf b)

/-- The bytes for the checksum at the end of a block of a directory. -/
def tailSize (k : Form) : Nat := if k.uuid.isSome then 12 else 0

/-- The record of an entry: it fills its block, up to the checksum. -/
def record (k : Form) (e : Bytes × Nat) : Bytes :=
  NewEntry.encode ⟨e.2 + 2, 0, e.1, zeros (bs k - tailSize k - 8 - e.1.length)⟩

/-- Where the checksums of the directory at place `i` start: the checksum of the UUID, continued with the number of
the inode and its generation, zero. -/
def seed (u i : Nat) : BitVec 32 := crc (crc (BitVec.allOnes 32) (leBytes 16 u)) (leBytes 4 (i + 2) ++ leBytes 4 0)

/-- A block of the directory at place `i`: one record, and its checksum. -/
def entryBlock (k : Form) (i : Nat) (e : Bytes × Nat) : Bytes :=
  record k e ++
    match k.uuid with
    | none => []
    | some u => encodeTail (crc (seed u i) (record k e)).toNat

/-- The bytes of the file or directory at place `i`. -/
def body (k : Form) (i : Nat) : Node → Bytes
  | .file b => b
  | .dir es => es.flatMap (entryBlock k i)

/-- Their number, which is the same at all places. -/
def size (k : Form) (nd : Node) : Nat := (body k 0 nd).length

/-- The number of blocks. -/
def blocks (k : Form) (nd : Node) : Nat := (size k nd + (bs k - 1)) / bs k

/-- Its first block: files and directories follow the inode table in the order of the table. -/
def start (k : Form) (t : List Node) (i : Nat) : Nat :=
  firstData k + 2 + tableBlocks k t + ((t.map (blocks k)).take i).sum

/-- Number of blocks of the volume. -/
def total (k : Form) (t : List Node) : Nat := start k t t.length

/-- Fields of the superblock: `s_inodes_count`, `s_blocks_count_lo`, `s_first_data_block` (0x14), `s_log_block_size`,
`s_log_cluster_size`, `s_blocks_per_group`, `s_clusters_per_group`, `s_inodes_per_group` (0x28), `s_magic` (0x38),
`s_state`, `s_errors`, `s_creator_os` (0x48), `s_rev_level`, `s_first_ino`, `s_inode_size` (0x58),
`s_feature_incompat` (0x60; extents, 64 bit), `s_feature_ro_compat` (checksums of metadata), `s_uuid` (0x68),
`s_desc_size` (0xfe), `s_blocks_count_hi` (0x150), `s_log_groups_per_flex`, `s_checksum_type`; everything but the
checksum. -/
def superblockFront (k : Form) (t : List Node) : Bytes := fields
  [(4, inodes k t), (4, total k t), (12, 0), (4, firstData k), (4, k.log), (4, k.log), (4, total k t),
   (4, total k t), (4, inodes k t), (12, 0), (2, 0xef53), (2, 1), (2, 1), (2, 0), (8, 0), (4, 0), (4, 1), (4, 0),
   (4, 3), (2, 128), (2, 0), (4, 0), (4, 0xc0), (4, if k.uuid.isSome then 0x400 else 0), (16, k.uuid.getD 0),
   (134, 0), (2, 64), (80, 0), (4, 0), (32, 0), (1, 0), (1, if k.uuid.isSome then 1 else 0), (646, 0)]

/-- The superblock: the fields, and `s_checksum`, of all fields before it. -/
def superblock (k : Form) (t : List Node) : Bytes :=
  superblockFront k t ++
    leBytes 4 (if k.uuid.isSome then (crc (BitVec.allOnes 32) (superblockFront k t)).toNat else 0)

/-- The group descriptor: `bg_inode_table_lo` (0x8), `bg_inode_table_hi` (0x28). -/
def descriptor (k : Form) : Bytes := fields [(8, 0), (4, firstData k + 2), (28, 0), (4, 0), (20, 0)]

/-- An extent, the `i`-th of a file with `n` blocks from block `s` on: `ee_block`, `ee_len`, `ee_start_hi`,
`ee_start_lo`. -/
def extent (s n i : Nat) : Bytes :=
  fields [(4, i * 32767), (2, min 32767 (n - i * 32767)), (2, 0), (4, s + i * 32767)]

/-- The number of extents. -/
def extents (n : Nat) : Nat := (n + 32766) / 32767

/-- `i_block`: `eh_magic`, `eh_entries`, `eh_max`, `eh_depth`, `eh_generation`; the extents. -/
def extentRoot (s n : Nat) : Bytes :=
  fields [(2, 0xf30a), (2, extents n), (2, 4), (2, 0), (4, 0)] ++
    ((List.range (extents n)).map (extent s n)).flatten ++ zeros (48 - 12 * extents n)

/-- `i_mode`. -/
def mode : Node → Nat
  | .file _ => 0x81a4
  | .dir _ => 0x41ed

/-- An inode: `i_mode`, `i_size_lo` (0x4), `i_flags` (0x20; `EXT4_EXTENTS_FL`), `i_block` (0x28), the rest. -/
def inode (k : Form) (nd : Node) (s : Nat) : Bytes :=
  fields [(2, mode nd), (2, 0), (4, size k nd), (24, 0), (4, 0x80000), (4, 0)] ++
    extentRoot s (blocks k nd) ++ zeros 28

/-- Zeros up to a length. -/
def padTo (n : Nat) (b : Bytes) : Bytes := b ++ zeros (n - b.length)

/-- The inode table. -/
def table (k : Form) (t : List Node) : Bytes :=
  (zeros 128 :: t.mapIdx fun i nd => inode k nd (start k t i)).flatten

/-- The blocks of all files and directories. -/
def data (k : Form) (t : List Node) : Bytes :=
  (t.mapIdx fun i nd => padTo (blocks k nd * bs k) (body k i nd)).flatten

/-- The volume: 1024 bytes not used, superblock, group descriptor, inode table, files and directories. -/
def volume (k : Form) (t : List Node) : Bytes :=
  padTo ((firstData k + 1) * bs k) (zeros 1024 ++ superblock k t) ++
    (padTo (bs k) (descriptor k) ++ (padTo (tableBlocks k t * bs k) (table k t) ++ data k t))

/-- What can be written this way: blocks of at most 32768 bytes; at most four extents for each file or directory;
numbers that fit into their fields (16 bytes for the UUID); names of at most 255 bytes, none of them zero, of places that exist. -/
structure Fits (k : Form) (t : List Node) : Prop where
  root : 0 < t.length
  block : k.log ≤ 5
  uuid : ∀ u, k.uuid = some u → u < 256 ^ 16
  count : t.length < 2 ^ 31
  names : ∀ es, .dir es ∈ t → ∀ e ∈ es, 0 ∉ e.1 ∧ e.1.length ≤ 255 ∧ e.2 < t.length
  sizes : ∀ nd ∈ t, blocks k nd ≤ 4 * 32767
  total : total k t < 2 ^ 32

end Mkfs
end MdSpec
