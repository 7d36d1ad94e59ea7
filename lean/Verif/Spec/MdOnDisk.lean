import Verif.Model.Layout

/-! The md on-disk superblocks as the Linux kernel documents them (include/uapi/linux/raid/md_p.h:
`struct mdp_superblock_1`, `struct mdp_superblock_s`, `struct mdp_device_descriptor_s`), as encoders that
write the members one after the other.  Member names are those of the kernel. -/

namespace MdSpec
open MdRecover

/-- Members of `struct mdp_superblock_1`. -/
structure Mdp1 where
  magic : Nat
  major_version : Nat
  feature_map : Nat
  pad0 : Nat
  set_uuid : Bytes
  set_name : Bytes
  ctime : Nat
  level : Nat
  layout : Nat
  size : Nat
  chunksize : Nat
  raid_disks : Nat
  bitmap_offset : Nat
  new_level : Nat
  reshape_position : Nat
  delta_disks : Nat
  new_layout : Nat
  new_chunk : Nat
  new_offset : Nat
  data_offset : Nat
  data_size : Nat
  super_offset : Nat
  recovery_offset : Nat
  dev_number : Nat
  cnt_corrected_read : Nat
  device_uuid : Bytes
  devflags : Nat
  bblog_shift : Nat
  bblog_size : Nat
  bblog_offset : Nat
  utime : Nat
  events : Nat
  resync_offset : Nat
  sb_csum : Nat
  max_dev : Nat
  pad3 : Bytes
  dev_roles : List Nat

/-- The members have values of their types; the role table fills the 4096-byte superblock. -/
structure Mdp1.Wf (m : Mdp1) : Prop where
  magic : m.magic < U32
  major_version : m.major_version < U32
  feature_map : m.feature_map < U32
  set_uuid : m.set_uuid.length = 16
  set_name : m.set_name.length = 32
  level : m.level < U32
  layout : m.layout < U32
  size : m.size < U64
  chunksize : m.chunksize < U32
  raid_disks : m.raid_disks < U32
  bitmap_offset : m.bitmap_offset < U32
  new_level : m.new_level < U32
  reshape_position : m.reshape_position < U64
  delta_disks : m.delta_disks < U32
  new_layout : m.new_layout < U32
  new_chunk : m.new_chunk < U32
  new_offset : m.new_offset < U32
  data_offset : m.data_offset < U64
  recovery_offset : m.recovery_offset < U64
  dev_number : m.dev_number < U32
  device_uuid : m.device_uuid.length = 16
  events : m.events < U64
  max_dev : m.max_dev < U32
  pad3 : m.pad3.length = 32
  roles_length : m.dev_roles.length = 1920
  roles : ∀ r ∈ m.dev_roles, r < U16

/-- The bytes of a version-1 superblock: all members little endian. -/
def Mdp1.encode (m : Mdp1) : Bytes := List.flatten
  [leBytes 4 m.magic, leBytes 4 m.major_version, leBytes 4 m.feature_map, leBytes 4 m.pad0,
   m.set_uuid, m.set_name, leBytes 8 m.ctime, leBytes 4 m.level, leBytes 4 m.layout,
   leBytes 8 m.size, leBytes 4 m.chunksize, leBytes 4 m.raid_disks, leBytes 4 m.bitmap_offset,
   leBytes 4 m.new_level, leBytes 8 m.reshape_position, leBytes 4 m.delta_disks,
   leBytes 4 m.new_layout, leBytes 4 m.new_chunk, leBytes 4 m.new_offset,
   leBytes 8 m.data_offset, leBytes 8 m.data_size, leBytes 8 m.super_offset,
   leBytes 8 m.recovery_offset, leBytes 4 m.dev_number, leBytes 4 m.cnt_corrected_read,
   m.device_uuid, leBytes 1 m.devflags, leBytes 1 m.bblog_shift, leBytes 2 m.bblog_size,
   leBytes 4 m.bblog_offset, leBytes 8 m.utime, leBytes 8 m.events, leBytes 8 m.resync_offset,
   leBytes 4 m.sb_csum, leBytes 4 m.max_dev, m.pad3, (m.dev_roles.map (leBytes 2)).flatten]

/-- Members of `struct mdp_device_descriptor_s`. -/
structure MdpDisk where
  number : Nat
  major : Nat
  minor : Nat
  raid_disk : Nat
  state : Nat
  reserved : Bytes

/-- Value bounds of a descriptor. -/
structure MdpDisk.Wf (d : MdpDisk) : Prop where
  number : d.number < U32
  raid_disk : d.raid_disk < U32
  reserved : d.reserved.length = 108

/-- Members of `struct mdp_superblock_s` (version 0.90). -/
structure Mdp0 where
  md_magic : Nat
  major_version : Nat
  minor_version : Nat
  patch_version : Nat
  gvalid_words : Nat
  set_uuid0 : Nat
  ctime : Nat
  level : Nat
  size : Nat
  nr_disks : Nat
  raid_disks : Nat
  md_minor : Nat
  not_persistent : Nat
  set_uuid1 : Nat
  set_uuid2 : Nat
  set_uuid3 : Nat
  gstate_creserved : Bytes
  utime : Nat
  state : Nat
  active_disks : Nat
  working_disks : Nat
  failed_disks : Nat
  spare_disks : Nat
  sb_csum : Nat
  events : Nat
  cp_events : Nat
  recovery_cp : Nat
  reshape_position : Nat
  new_level : Nat
  delta_disks : Nat
  new_layout : Nat
  new_chunk : Nat
  gstate_sreserved : Bytes
  layout : Nat
  chunk_size : Nat
  root_pv : Nat
  root_block : Nat
  pstate_reserved : Bytes
  disks : List MdpDisk
  this_disk : MdpDisk

/-- Value bounds; there are 27 descriptors. -/
structure Mdp0.Wf (m : Mdp0) : Prop where
  md_magic : m.md_magic < U32
  major_version : m.major_version < U32
  minor_version : m.minor_version < U32
  set_uuid0 : m.set_uuid0 < U32
  set_uuid1 : m.set_uuid1 < U32
  set_uuid2 : m.set_uuid2 < U32
  set_uuid3 : m.set_uuid3 < U32
  level : m.level < U32
  size : m.size < U32
  nr_disks : m.nr_disks < U32
  raid_disks : m.raid_disks < U32
  events : m.events < U64
  reshape_position : m.reshape_position < U64
  new_level : m.new_level < U32
  delta_disks : m.delta_disks < U32
  new_layout : m.new_layout < U32
  new_chunk : m.new_chunk < U32
  layout : m.layout < U32
  chunk_size : m.chunk_size < U32
  gstate_creserved : m.gstate_creserved.length = 64
  gstate_sreserved : m.gstate_sreserved.length = 56
  pstate_reserved : m.pstate_reserved.length = 240
  disks_length : m.disks.length = 27
  disks : ∀ d ∈ m.disks, d.Wf
  this_disk : m.this_disk.Wf

/-- The bytes of a descriptor; `enc n v` writes `v` in `n` bytes. -/
def MdpDisk.encode (enc : Nat → Nat → Bytes) (d : MdpDisk) : Bytes := List.flatten
  [enc 4 d.number, enc 4 d.major, enc 4 d.minor, enc 4 d.raid_disk, enc 4 d.state, d.reserved]

/-- The bytes of a version-0.90 superblock, in the byte order of the host that wrote it (`enc`); the 64-bit
members are pairs of words ordered so that they read as one 64-bit value in that byte order. -/
def Mdp0.encode (enc : Nat → Nat → Bytes) (m : Mdp0) : Bytes := List.flatten
  [enc 4 m.md_magic, enc 4 m.major_version, enc 4 m.minor_version, enc 4 m.patch_version,
   enc 4 m.gvalid_words, enc 4 m.set_uuid0, enc 4 m.ctime, enc 4 m.level, enc 4 m.size,
   enc 4 m.nr_disks, enc 4 m.raid_disks, enc 4 m.md_minor, enc 4 m.not_persistent,
   enc 4 m.set_uuid1, enc 4 m.set_uuid2, enc 4 m.set_uuid3, m.gstate_creserved,
   enc 4 m.utime, enc 4 m.state, enc 4 m.active_disks, enc 4 m.working_disks,
   enc 4 m.failed_disks, enc 4 m.spare_disks, enc 4 m.sb_csum, enc 8 m.events,
   enc 8 m.cp_events, enc 4 m.recovery_cp, enc 8 m.reshape_position, enc 4 m.new_level,
   enc 4 m.delta_disks, enc 4 m.new_layout, enc 4 m.new_chunk, m.gstate_sreserved,
   enc 4 m.layout, enc 4 m.chunk_size, enc 4 m.root_pv, enc 4 m.root_block, m.pstate_reserved,
   (m.disks.map (MdpDisk.encode enc)).flatten, m.this_disk.encode enc]

/-- The `__le32` device count delta is signed. -/
def signed32 (v : Nat) : Int := if v < 2147483648 then v else (v : Int) - 4294967296

/-- What version-0 validity demands of the stored bytes in byte order `e`. -/
def V0Acceptable (e : Endian) (b : Bytes) : Prop :=
  e.nat (slice b 0 4) = 0xa92b4efc ∧ e.nat (slice b 4 4) = 0 ∧
  ∀ i, i < 27 → i < e.nat (slice b 36 4) →
    e.nat (slice b (512 + 128 * i + 12) 4) < 0xfeff ∨ 0xfffd ≤ e.nat (slice b (512 + 128 * i + 12) 4)

end MdSpec
