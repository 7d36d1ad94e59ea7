import Verif.Model.MdDevice
import Verif.Model.HMap

/-! What a diagnosis should say about a list of devices, independently of how it is computed. -/

namespace MdSpec
open MdRecover

/-- The device has a superblock, and value `k` for the attribute. -/
def has {D K : Type} [DecidableEq K] (attr : Superblock → Option K) (k : K) (d : MdDevice D) : Bool :=
  match d.superblock with
  | .superblock s => attr s = some k
  | _ => false

/-- The devices with value `k`. -/
def having {D K : Type} [DecidableEq K] (attr : Superblock → Option K) (k : K)
    (devices : List (MdDevice D)) : List (MdDevice D) :=
  devices.filter (has attr k)

/-- A report on an attribute in which the devices should agree: absent iff all values are equal; otherwise it
maps each occurring value, and no other, to the ids of the devices having it, each once, in some order. -/
structure Disagreement {D K : Type} [DecidableEq K] (attr : Superblock → Option K)
    (devices : List (MdDevice D)) (report : Option (HMap K (List MdDeviceId))) : Prop where
  absent : report = none ↔ ∀ d ∈ devices, ∀ e ∈ devices, ∀ a b, has attr a d → has attr b e → a = b
  keys : ∀ m, report = some m → (m.map (·.1)).Nodup
  values : ∀ m, report = some m → ∀ k, (∃ ids, (k, ids) ∈ m) ↔ ∃ d ∈ devices, has attr k d
  ids : ∀ m, report = some m → ∀ k ids, (k, ids) ∈ m → ids.Perm ((having attr k devices).map (·.id))

/-- A report on an attribute in which the devices should differ: it maps each value that occurs on at
least two devices, and no other, to the ids of the devices having it; absent iff there is none. -/
structure Duplicates {D K : Type} [DecidableEq K] (attr : Superblock → Option K)
    (devices : List (MdDevice D)) (report : Option (HMap K (List MdDeviceId))) : Prop where
  absent : report = none ↔ ∀ k, (having attr k devices).length ≤ 1
  keys : ∀ m, report = some m → (m.map (·.1)).Nodup
  values : ∀ m, report = some m → ∀ k, (∃ ids, (k, ids) ∈ m) ↔ 2 ≤ (having attr k devices).length
  ids : ∀ m, report = some m → ∀ k ids, (k, ids) ∈ m → ids.Perm ((having attr k devices).map (·.id))

/-- A report listing the devices in a state: absent iff there is none; otherwise the set of their ids (ids are
equal iff their indexes are). -/
structure Listing {D : Type} (p : MdDevice D → Prop) (devices : List (MdDevice D))
    (report : Option (List MdDeviceId)) : Prop where
  absent : report = none ↔ ∀ d ∈ devices, ¬ p d
  distinct : ∀ l, report = some l → (l.map (·.internalIndex)).Nodup
  sound : ∀ l, report = some l → ∀ i ∈ l, ∃ d ∈ devices, p d ∧ d.id = i
  complete : ∀ l, report = some l → ∀ d ∈ devices, p d →
    d.id.internalIndex ∈ l.map (·.internalIndex)

/-- The same set of ids. -/
def SameIds (r r' : Option (List MdDeviceId)) : Prop :=
  (r = none ↔ r' = none) ∧ ∀ l l', r = some l → r' = some l' →
    (l.map (·.internalIndex)).Perm (l'.map (·.internalIndex))

/-- The same map from values to multisets of ids. -/
def SameReport {K : Type} (r r' : Option (HMap K (List MdDeviceId))) : Prop :=
  (r = none ↔ r' = none) ∧ ∀ m m', r = some m → r' = some m' →
    (m.map (·.1)).Perm (m'.map (·.1)) ∧
    ∀ k ids ids', (k, ids) ∈ m → (k, ids') ∈ m' → ids.Perm ids'

end MdSpec
