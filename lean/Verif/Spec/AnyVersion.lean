import Verif.Spec.EndToEnd
import Verif.Spec.AnyMembers

/-! The disks of a RAID6 array with superblocks of any version, and data areas anywhere. -/

namespace MdSpec
open MdRecover

/-- At the paths, in any order, are block devices, on which superblocks of the members of a RAID6 array, and possibly
of spares, are found.  `file j` is the device at the `j`-th path, `sb j` its superblock, of whichever version, with
whichever data offset; `place d` is which of the paths has member number `d`. -/
structure MembersFound (fs : Bytes → Except Nat OsFile) (paths : List Bytes) (alg : Raid6Algorithm) (n c size : Nat)
    (file : Nat → OsFile) (sb : Nat → Superblock) (place : Nat → Nat) : Prop where
  at_path : ∀ j path, paths[j]? = some path → fs path = .ok (file j)
  device : ∀ j, j < paths.length → ∃ bs, (file j).physical = some bs ∧ 0 < bs ∧ bs < U32 ∧
    (file j).content.length < U64
  found : ∀ j, j < paths.length → Expected (wholeBlocks (file j)) (.superblock (sb j))
  /-- The superblocks describe the array; no reshape is in progress. -/
  geometry : ∀ j, j < paths.length → (sb j).algorithm = .raid6 alg ∧ (sb j).raidDeviceCount = n ∧
    (sb j).sectorsPerDevice = size ∧ (sb j).chunkSize = c ∧ (sb j).reshapeStatus = none
  /-- They have the same role table, ... -/
  roles : ∀ i j, i < paths.length → j < paths.length → (sb i).deviceRoles = (sb j).deviceRoles
  /-- ... which has one device for each member number. -/
  placed : ∀ d, d < n → place d < paths.length ∧
    (sb (place d)).deviceRoles[(sb (place d)).deviceRoleIndex]? = some ⟨d⟩
  sole : ∀ j d, j < paths.length → d < n → (sb j).deviceRoles[(sb j).deviceRoleIndex]? = some ⟨d⟩ → j = place d
  /-- Member numbers are at most 0xfeff. -/
  numbers : 0 < n ∧ n ≤ 0xff00

/-- The version-1 superblock `m` is at the place for minor version `minor`, and there is none at a place that comes
before: 1.2 at 4096, then 1.1 at 0, then 1.0 near the end. -/
inductive StoredV1 (content : Bytes) (m : Mdp1) : Nat → Prop
  | v12 : slice content 4096 4096 = m.encode → StoredV1 content m 2
  | v11 : ¬ V1At content 4096 → slice content 0 4096 = m.encode → StoredV1 content m 1
  | v10 {off} : ¬ V1At content 4096 → ¬ V1At content 0 → Place10 content.length off →
      slice content off 4096 = m.encode → StoredV1 content m 0

/-- A block device with the version-1 superblock `m` for minor version `minor`. -/
structure MemberV1 (f : OsFile) (m : Mdp1) (minor : Nat) : Prop where
  blocks : ∃ bs, f.physical = some bs ∧ 0 < bs ∧ bs < U32 ∧ bs ∣ f.content.length
  size : 12288 ≤ f.content.length ∧ f.content.length < U64
  wf : m.Wf
  magic : m.magic = 0xa92b4efc
  version : m.major_version = 1
  stored : StoredV1 f.content m minor

/-- As `MembersAt`, but with any version-1 superblocks, also of different minor versions, and any data offsets. -/
structure MembersV1 (fs : Bytes → Except Nat OsFile) (paths : List Bytes) (L n c size : Nat)
    (file : Nat → OsFile) (sb : Nat → Mdp1) (minor : Nat → Nat) (place : Nat → Nat) : Prop where
  at_path : ∀ j path, paths[j]? = some path → fs path = .ok (file j)
  member : ∀ j, j < paths.length → MemberV1 (file j) (sb j) (minor j)
  geometry : ∀ j, j < paths.length → (sb j).level = 6 ∧ (sb j).layout = L ∧ (sb j).raid_disks = n ∧
    (sb j).size = size ∧ (sb j).chunksize = c ∧ (sb j).feature_map / 4 % 2 = 0
  roles : ∀ i j, i < paths.length → j < paths.length → roleTable (sb i) = roleTable (sb j)
  placed : ∀ d, d < n → place d < paths.length ∧
    (roleTable (sb (place d)))[(sb (place d)).dev_number]? = some d
  sole : ∀ j d, j < paths.length → d < n → (roleTable (sb j))[(sb j).dev_number]? = some d → j = place d
  numbers : 0 < n ∧ n ≤ 0xff00

end MdSpec
