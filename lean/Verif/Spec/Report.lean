import Verif.Model.Report
import Verif.Spec.Clean

/-! What the text of a report should tell. -/

namespace MdSpec
open MdRecover

/-- The same finding, up to the order of its entries: either no complaint in both, or complaints that list
the same entries. -/
def SameFinding {α : Type} : Option (List α) → Option (List α) → Prop
  | none, none => True
  | some l, some l' => l.Perm l'
  | _, _ => False

/-- Two diagnoses with the same findings. -/
structure SameFindings (d d' : Diagnosis) : Prop where
  deviceTooSmall : SameFinding d.deviceTooSmall d'.deviceTooSmall
  missingSuperblock : SameFinding d.missingSuperblock d'.missingSuperblock
  arrayUuid : SameFinding d.arrayUuid d'.arrayUuid
  arrayName : SameFinding d.arrayName d'.arrayName
  algorithm : SameFinding d.algorithm d'.algorithm
  size : SameFinding d.size d'.size
  chunkSize : SameFinding d.chunkSize d'.chunkSize
  deviceCount : SameFinding d.deviceCount d'.deviceCount
  reshape : SameFinding d.reshape d'.reshape
  eventCount : SameFinding d.eventCount d'.eventCount
  deviceRoleIndex : SameFinding d.deviceRoleIndex d'.deviceRoleIndex
  deviceRoles : SameFinding d.deviceRoles d'.deviceRoles

/-- A text given by its lines. -/
def linesText (l : List String) : Bytes := l.flatMap fun line => ascii line ++ [10]

/-- The output of the program if there is nothing to complain about. -/
def cleanText : Bytes := linesText [
  "Diagnosis {",
  "    device_too_small_problem: None,",
  "    missing_superblock_problem: None,",
  "    array_uuid_problem: None,",
  "    array_name_problem: None,",
  "    algorithm_problem: None,",
  "    size_problem: None,",
  "    chunk_size_problem: None,",
  "    device_count_problem: None,",
  "    reshape_problem: None,",
  "    event_count_problem: None,",
  "    device_role_index_problem: None,",
  "    device_roles_problem: None,",
  "}"]

/-- The value of a hexadecimal digit in lower case. -/
def hexValue (c : UInt8) : Option Nat :=
  if 48 ≤ c.toNat ∧ c.toNat ≤ 57 then some (c.toNat - 48)
  else if 97 ≤ c.toNat ∧ c.toNat ≤ 102 then some (c.toNat - 87)
  else none

/-- The text gives the bytes in hexadecimal: two digits for each byte, the higher one first. -/
def HexOf (b text : Bytes) : Prop :=
  text.length = 2 * b.length ∧ ∀ i x, b[i]? = some x →
    ∃ h l vh vl, text[2 * i]? = some h ∧ text[2 * i + 1]? = some l ∧ hexValue h = some vh ∧
      hexValue l = some vl ∧ x.toNat = 16 * vh + vl

end MdSpec
