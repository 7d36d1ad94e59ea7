import Verif.Lemmas.Diagnosis
import Verif.Props.ArrayOpen

/-! C29-C32: what `diagnose` says about the devices given to `open`.  `ord` and `ord'` are the iteration orders
of the hash maps in `open` and in `diagnose`. -/

namespace MdRecover
open MdSpec

variable {D : Type}

/-- The attributes in which all members of an array should agree.  A superblock of version 0.90 has no array
name: such devices are not compared by name. -/
structure AllCompared (devices : List (MdDevice D)) (r : Diagnosis) : Prop where
  arrayUuid : Disagreement (fun s => some s.arrayUuid) devices r.arrayUuid
  arrayName : Disagreement (fun s => s.arrayName) devices r.arrayName
  algorithm : Disagreement (fun s => some s.algorithm) devices r.algorithm
  size : Disagreement (fun s => some s.sectorsPerDevice) devices r.size
  chunkSize : Disagreement (fun s => some s.chunkSize) devices r.chunkSize
  deviceCount : Disagreement (fun s => some s.raidDeviceCount) devices r.deviceCount
  reshape : Disagreement (fun s => some s.reshapeStatus) devices r.reshape
  eventCount : Disagreement (fun s => some s.eventCount) devices r.eventCount
  deviceRoles : Disagreement (fun s => some s.deviceRoles) devices r.deviceRoles

/-- C29. -/
theorem C29_disagreements_exact {ord ord' : IterOrder} (hord : ord.Valid) (hord' : ord'.Valid)
    (devices : List (MdDevice D)) :
    AllCompared devices (ArrayDef.diagnose ord' (MdArray.open ord devices)) := by
  have hp := ArrayDef.allDevices_perm hord hord' devices
  constructor <;> exact disagreement_of_perm _ hp (disagreement_several _ _)

/-- C30. -/
theorem C30_listings_exact {ord ord' : IterOrder} (hord : ord.Valid) (hord' : ord'.Valid)
    (devices : List (MdDevice D)) :
    Listing (fun d => d.superblock = .tooSmall) devices
      (ArrayDef.diagnose ord' (MdArray.open ord devices)).deviceTooSmall ∧
    Listing (fun d => d.superblock = .missing) devices
      (ArrayDef.diagnose ord' (MdArray.open ord devices)).missingSuperblock := by
  have hp := ArrayDef.allDevices_perm hord hord' devices
  exact ⟨listing_of_perm hp (listing_idsWith _ _), listing_of_perm hp (listing_idsWith _ _)⟩

/-- C31. -/
theorem C31_duplicate_indexes_exact {ord ord' : IterOrder} (hord : ord.Valid) (hord' : ord'.Valid)
    (devices : List (MdDevice D)) :
    Duplicates (fun s => some s.deviceRoleIndex) devices
      (ArrayDef.diagnose ord' (MdArray.open ord devices)).deviceRoleIndex :=
  duplicates_of_perm _ (ArrayDef.allDevices_perm hord hord' devices) (duplicates_filter _ _)

/-- Two diagnoses say the same. -/
structure SameDiagnosis (r r' : Diagnosis) : Prop where
  deviceTooSmall : SameIds r.deviceTooSmall r'.deviceTooSmall
  missingSuperblock : SameIds r.missingSuperblock r'.missingSuperblock
  arrayUuid : SameReport r.arrayUuid r'.arrayUuid
  arrayName : SameReport r.arrayName r'.arrayName
  algorithm : SameReport r.algorithm r'.algorithm
  size : SameReport r.size r'.size
  chunkSize : SameReport r.chunkSize r'.chunkSize
  deviceCount : SameReport r.deviceCount r'.deviceCount
  reshape : SameReport r.reshape r'.reshape
  eventCount : SameReport r.eventCount r'.eventCount
  deviceRoleIndex : SameReport r.deviceRoleIndex r'.deviceRoleIndex
  deviceRoles : SameReport r.deviceRoles r'.deviceRoles

/-- C32: whatever the order of the devices and of the hash maps, hence whichever devices are active
(which does depend on the order, `C25_order_matters`). -/
theorem C32_order_independent {ord₁ ord₂ ord₃ ord₄ : IterOrder} (h₁ : ord₁.Valid) (h₂ : ord₂.Valid)
    (h₃ : ord₃.Valid) (h₄ : ord₄.Valid) {devices devices' : List (MdDevice D)}
    (hp : devices.Perm devices') :
    SameDiagnosis (ArrayDef.diagnose ord₂ (MdArray.open ord₁ devices))
      (ArrayDef.diagnose ord₄ (MdArray.open ord₃ devices')) := by
  obtain ⟨a1, a2, a3, a4, a5, a6, a7, a8, a9⟩ := C29_disagreements_exact h₁ h₂ devices
  obtain ⟨b1, b2, b3, b4, b5, b6, b7, b8, b9⟩ := C29_disagreements_exact h₃ h₄ devices'
  obtain ⟨c1, c2⟩ := C30_listings_exact h₁ h₂ devices
  obtain ⟨d1, d2⟩ := C30_listings_exact h₃ h₄ devices'
  have e := C31_duplicate_indexes_exact h₁ h₂ devices
  have f := C31_duplicate_indexes_exact h₃ h₄ devices'
  exact ⟨(listing_of_perm hp c1).same d1, (listing_of_perm hp c2).same d2,
    (disagreement_of_perm _ hp a1).same _ b1, (disagreement_of_perm _ hp a2).same _ b2,
    (disagreement_of_perm _ hp a3).same _ b3, (disagreement_of_perm _ hp a4).same _ b4,
    (disagreement_of_perm _ hp a5).same _ b5, (disagreement_of_perm _ hp a6).same _ b6,
    (disagreement_of_perm _ hp a7).same _ b7, (disagreement_of_perm _ hp a8).same _ b8,
    (duplicates_of_perm _ hp e).same _ f, (disagreement_of_perm _ hp a9).same _ b9⟩

example := C32_order_independent IterOrder.valid_id IterOrder.valid_reverse IterOrder.valid_reverse IterOrder.valid_id
  (devices := [roleDevice 0 [0, 1], roleDevice 0 [0, 2]]) (devices' := [roleDevice 0 [0, 2], roleDevice 0 [0, 1]])
  (.swap _ _ _)

/-- Witness: two devices with the same role index and different role tables, one too small. -/
example (ord ord' : IterOrder) (hord : ord.Valid) (hord' : ord'.Valid) :
    let ds := [roleDevice 0 [0, 1], { roleDevice 0 [0, 2] with id := ⟨7, none⟩ },
      { roleDevice 2 [] with superblock := .tooSmall }]
    let r := ArrayDef.diagnose ord' (MdArray.open ord ds)
    r.deviceTooSmall ≠ none ∧ r.missingSuperblock = none ∧ r.deviceRoles ≠ none ∧
      r.deviceRoleIndex ≠ none ∧ r.arrayUuid = none := by
  intro ds r
  refine ⟨?_, ?_, ?_, ?_, ?_⟩
  · rw [ne_eq, (C30_listings_exact hord hord' ds).1.absent]; simp [ds]
  · rw [(C30_listings_exact hord hord' ds).2.absent]; simp [ds, roleDevice]
  · rw [ne_eq, (C29_disagreements_exact hord hord' ds).deviceRoles.absent]
    intro h
    have := h (roleDevice 0 [0, 1]) (by simp [ds]) { roleDevice 0 [0, 2] with id := ⟨7, none⟩ }
      (by simp [ds]) [⟨0⟩, ⟨1⟩] [⟨0⟩, ⟨2⟩] (by decide) (by decide)
    simp at this
  · rw [ne_eq, (C31_duplicate_indexes_exact hord hord' ds).absent]
    intro h
    have := h 0
    revert this
    decide
  · rw [(C29_disagreements_exact hord hord' ds).arrayUuid.absent]
    simp [ds, roleDevice, has]


end MdRecover
