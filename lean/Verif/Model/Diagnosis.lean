import Verif.Model.Array

namespace MdRecover

/-- `HashSet<Rc<MdDeviceId>>` from an iterator (Rust std); ids are compared by `MdDeviceId.eq`. -/
def idSet (l : List MdDeviceId) : List MdDeviceId :=
  l.foldl (fun s i => if s.any (·.eq i) then s else s ++ [i]) []

/-- `Diagnosis` (src/md/diagnosis/diagnosis.rs 9-23). -/
structure Diagnosis where
  deviceTooSmall : Option (List MdDeviceId)
  missingSuperblock : Option (List MdDeviceId)
  arrayUuid : Option (HMap ArrayUuid (List MdDeviceId))
  arrayName : Option (HMap Bytes (List MdDeviceId))
  algorithm : Option (HMap MdAlgorithm (List MdDeviceId))
  size : Option (HMap Nat (List MdDeviceId))
  chunkSize : Option (HMap Nat (List MdDeviceId))
  deviceCount : Option (HMap Nat (List MdDeviceId))
  reshape : Option (HMap (Option ReshapeStatus) (List MdDeviceId))
  eventCount : Option (HMap Nat (List MdDeviceId))
  deviceRoleIndex : Option (HMap Nat (List MdDeviceId))
  deviceRoles : Option (HMap (List Role) (List MdDeviceId))

namespace ArrayDef
variable {D : Type}

/-- `all_devices` (src/md/definition.rs 45-47): the values of the map in an unspecified order, then the inactive
devices. -/
def allDevices (ord : IterOrder) (a : ArrayDef D) : List (MdDevice D) :=
  (ord _ a.devices).map (·.2) ++ a.inactive

/-- The ids of the devices whose superblock state is `s` (src/md/definition.rs 50-55 and 65-70). -/
def idsWith (s : DeviceSuperblock) (ds : List (MdDevice D)) : List MdDeviceId :=
  idSet (ds.filterMap fun d => if d.superblock = s then some d.id else none)

/-- `if set.is_empty() { None } else { Some(set) }` (src/md/definition.rs 57-61). -/
def nonEmpty {α : Type} (l : List α) : Option (List α) := if l.isEmpty then none else some l

/-- `diagnose_device_too_small_problem` (src/md/definition.rs 49-62). -/
def tooSmallProblem (ds : List (MdDevice D)) : Option (List MdDeviceId) :=
  nonEmpty (idsWith .tooSmall ds)

/-- `diagnose_missing_superblock_problem` (src/md/definition.rs 64-77). -/
def missingProblem (ds : List (MdDevice D)) : Option (List MdDeviceId) :=
  nonEmpty (idsWith .missing ds)

/-- The grouping of device ids by a property of the superblock, used by all the functions below
(src/md/definition.rs 80-85 etc.). -/
def groupBy {K : Type} [DecidableEq K] (key : Superblock → Option K) (ds : List (MdDevice D)) :
    HMap K (List MdDeviceId) :=
  HMap.fromMultiIter (ds.filterMap fun d =>
    d.superblock.asOption.bind fun s => (key s).map fun k => (k, d.id))

/-- `if map.len() > 1 { Some(map) } else { None }` (src/md/definition.rs 87-91 etc.). -/
def several {K V : Type} (m : HMap K V) : Option (HMap K V) := if 1 < m.length then some m else none

/-- `diagnose_array_uuid_problem` (src/md/definition.rs 79-92). -/
def arrayUuidProblem (ds : List (MdDevice D)) := several (groupBy (fun s => some s.arrayUuid) ds)
/-- `diagnose_array_name_problem` (src/md/definition.rs 94-108). -/
def arrayNameProblem (ds : List (MdDevice D)) := several (groupBy (fun s => s.arrayName) ds)
/-- `diagnose_algorithm_problem` (src/md/definition.rs 110-123). -/
def algorithmProblem (ds : List (MdDevice D)) := several (groupBy (fun s => some s.algorithm) ds)
/-- `diagnose_size_problem` (src/md/definition.rs 125-138). -/
def sizeProblem (ds : List (MdDevice D)) := several (groupBy (fun s => some s.sectorsPerDevice) ds)
/-- `diagnose_chunk_size_problem` (src/md/definition.rs 140-155). -/
def chunkSizeProblem (ds : List (MdDevice D)) := several (groupBy (fun s => some s.chunkSize) ds)
/-- `diagnose_device_count_problem` (src/md/definition.rs 157-170). -/
def deviceCountProblem (ds : List (MdDevice D)) :=
  several (groupBy (fun s => some s.raidDeviceCount) ds)
/-- `diagnose_reshape_problem` (src/md/definition.rs 172-187). -/
def reshapeProblem (ds : List (MdDevice D)) := several (groupBy (fun s => some s.reshapeStatus) ds)
/-- `diagnose_event_count_problem` (src/md/definition.rs 189-204). -/
def eventCountProblem (ds : List (MdDevice D)) := several (groupBy (fun s => some s.eventCount) ds)
/-- `diagnose_device_role_index_problem` (src/md/definition.rs 206-223). -/
def deviceRoleIndexProblem (ds : List (MdDevice D)) : Option (HMap Nat (List MdDeviceId)) :=
  nonEmpty ((groupBy (fun s => some s.deviceRoleIndex) ds).filter fun e => 1 < e.2.length)
/-- `diagnose_device_roles_problem` (src/md/definition.rs 225-240). -/
def deviceRolesProblem (ds : List (MdDevice D)) := several (groupBy (fun s => some s.deviceRoles) ds)

/-- `MdArrayDefinition::diagnose` (src/md/definition.rs 28-43; `MdArray::diagnose` is src/md/array.rs
106-108).  Simplified: the map is iterated in the same order by each of the functions. -/
def diagnose (ord : IterOrder) (a : ArrayDef D) : Diagnosis :=
  let ds := a.allDevices ord
  { deviceTooSmall := tooSmallProblem ds
    missingSuperblock := missingProblem ds
    arrayUuid := arrayUuidProblem ds
    arrayName := arrayNameProblem ds
    algorithm := algorithmProblem ds
    size := sizeProblem ds
    chunkSize := chunkSizeProblem ds
    deviceCount := deviceCountProblem ds
    reshape := reshapeProblem ds
    eventCount := eventCountProblem ds
    deviceRoleIndex := deviceRoleIndexProblem ds
    deviceRoles := deviceRolesProblem ds }

end ArrayDef
end MdRecover
