import Verif.Spec.ArrayRead
import Verif.Spec.Main

/-! The disks of a RAID6 array as they lie before the program: what is at the paths given to it. -/

namespace MdSpec
open MdRecover

/-- A block device with a version-1.0 superblock `m` at its place, and no other version-1 superblock. -/
structure Member10 (f : OsFile) (m : Mdp1) : Prop where
  blocks : ∃ bs, f.physical = some bs ∧ 0 < bs ∧ bs < U32 ∧ bs ∣ f.content.length
  size : 12288 ≤ f.content.length ∧ f.content.length < U64
  wf : m.Wf
  magic : m.magic = 0xa92b4efc
  version : m.major_version = 1
  stored : ∃ off, Place10 f.content.length off ∧ slice f.content off 4096 = m.encode
  only : ¬ V1At f.content 4096 ∧ ¬ V1At f.content 0

/-- The role table of a superblock. -/
def roleTable (m : Mdp1) : List Nat := m.dev_roles.take m.max_dev

/-- At the paths, in any order, are block devices whose superblocks are those of the members of a RAID6 array of
layout number `L`, and possibly spares.  `file j` is the device at the `j`-th path, `sb j` its superblock;
`place d` is which of the paths has member number `d`.  The data areas begin at the first sector. -/
structure MembersAt (fs : Bytes → Except Nat OsFile) (paths : List Bytes) (L n c size : Nat)
    (file : Nat → OsFile) (sb : Nat → Mdp1) (place : Nat → Nat) : Prop where
  at_path : ∀ j path, paths[j]? = some path → fs path = .ok (file j)
  member : ∀ j, j < paths.length → Member10 (file j) (sb j)
  /-- The superblocks describe the array; no reshape is in progress. -/
  geometry : ∀ j, j < paths.length → (sb j).level = 6 ∧ (sb j).layout = L ∧ (sb j).raid_disks = n ∧
    (sb j).size = size ∧ (sb j).chunksize = c ∧ (sb j).feature_map / 4 % 2 = 0 ∧ (sb j).data_offset = 0
  /-- They have the same role table, ... -/
  roles : ∀ i j, i < paths.length → j < paths.length → roleTable (sb i) = roleTable (sb j)
  /-- ... which has one device for each member number. -/
  placed : ∀ d, d < n → place d < paths.length ∧
    (roleTable (sb (place d)))[(sb (place d)).dev_number]? = some d
  sole : ∀ j d, j < paths.length → d < n → (roleTable (sb j))[(sb j).dev_number]? = some d → j = place d
  /-- Member numbers are at most 0xfeff. -/
  numbers : 0 < n ∧ n ≤ 0xff00

/-- What is more, the members hold the logical content `content`. -/
structure ArrayAt (fs : Bytes → Except Nat OsFile) (paths : List Bytes) (L n c size : Nat)
    (content : Bytes) (file : Nat → OsFile) (sb : Nat → Mdp1) (place : Nat → Nat) : Prop
    extends MembersAt fs paths L n c size file sb place where
  data : Raid6Set L n c size (fun d => asDisk (file (place d))) content

/-- The superblocks agree in the rest, and are of different devices. -/
structure InStep (paths : List Bytes) (sb : Nat → Mdp1) : Prop where
  uuid : ∀ i j, i < paths.length → j < paths.length → (sb i).set_uuid = (sb j).set_uuid
  name : ∀ i j, i < paths.length → j < paths.length → (sb i).set_name = (sb j).set_name
  events : ∀ i j, i < paths.length → j < paths.length → (sb i).events = (sb j).events
  distinct : ∀ i j, i < paths.length → j < paths.length → (sb i).dev_number = (sb j).dev_number → i = j

end MdSpec
