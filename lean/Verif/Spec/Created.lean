import Verif.Spec.EndToEnd

/-! The disks of a new RAID6 array with superblocks of version 1.0. -/

namespace MdSpec
open MdRecover

/-- What is chosen when an array is created: its uuid and name, the number of its layout, the number of its
members, the number of sectors of a chunk and of a member; how often it has been started. -/
structure NewArray where
  uuid : Bytes
  name : Bytes
  layout : Nat
  members : Nat
  chunk : Nat
  size : Nat
  events : Nat

/-- The superblock of member number `d`: device number and role are `d`.  The role table has 1920 places. -/
def NewArray.superblock (a : NewArray) (d : Nat) : Mdp1 where
  magic := 0xa92b4efc
  major_version := 1
  feature_map := 0
  pad0 := 0
  set_uuid := a.uuid
  set_name := a.name
  ctime := 0
  level := 6
  layout := a.layout
  size := a.size
  chunksize := a.chunk
  raid_disks := a.members
  bitmap_offset := 0
  new_level := 0
  reshape_position := 0
  delta_disks := 0
  new_layout := 0
  new_chunk := 0
  new_offset := 0
  data_offset := 0
  data_size := a.size
  super_offset := a.size
  recovery_offset := 0
  dev_number := d
  cnt_corrected_read := 0
  device_uuid := zeros 16
  devflags := 0
  bblog_shift := 0
  bblog_size := 0
  bblog_offset := 0
  utime := 0
  events := a.events
  resync_offset := 0
  sb_csum := 0
  max_dev := a.members
  pad3 := zeros 32
  dev_roles := List.range a.members ++ List.replicate (1920 - a.members) 0xffff

/-- The bytes of a disk: its part of the data, zeros up to the next multiple of 4096 and 8192 more, the superblock,
and 4096 bytes to the end. -/
def NewArray.disk (a : NewArray) (data : Bytes) (d : Nat) : Bytes :=
  data ++ zeros (4096 - data.length % 4096 + 8192) ++ ((a.superblock d).encode ++ zeros 4096)

/-- Values that fit: 3 to 1920 members, whole chunks, less than 2^60 bytes in a member and 2^64 in all. -/
structure NewArray.Fits (a : NewArray) : Prop where
  uuid : a.uuid.length = 16
  name : a.name.length = 32
  layout : a.layout < U32
  members : 3 ≤ a.members ∧ a.members ≤ 1920
  chunk : 0 < a.chunk ∧ a.chunk < U32 ∧ a.chunk ∣ a.size
  size : 9 ≤ a.size ∧ a.size * 512 < 2 ^ 60 ∧ a.size * (a.members - 2) * 512 < U64
  events : a.events < U64

/-- Data that do not begin with what could be another superblock, of version 1.1, and do not have one of version
1.2 at its place. -/
def Unmistakable (data : Bytes) : Prop :=
  leNat ((data.drop 0).take 4) ≠ 0xa92b4efc ∧ leNat ((data.drop 4096).take 4) ≠ 0xa92b4efc

/-- The disks of a new array are at the paths, in some order: the `j`-th path has member number `order j`, with the
data `data (order j)` and a physical block size that divides 4096. -/
structure NewArray.GivenAt (a : NewArray) (fs : Bytes → Except Nat OsFile) (paths : List Bytes)
    (order : List Nat) (data : Nat → Bytes) (b : Nat → Nat) : Prop where
  fits : a.Fits
  perm : order.Perm (List.range a.members)
  count : paths.length = a.members
  at_path : ∀ (j : Nat) (path : Bytes) (d : Nat), paths[j]? = some path → order[j]? = some d →
    fs path = .ok ⟨a.disk (data d) d, some (b d)⟩
  length : ∀ d, d < a.members → (data d).length = a.size * 512
  unmistakable : ∀ d, d < a.members → Unmistakable (data d)
  blocks : ∀ d, d < a.members → b d ∣ 4096

end MdSpec
