import Verif.Spec.Report
import Verif.Spec.Utf8

/-! The text of a report line by line.  A text is a list of lines with levels of indentation, so that it can be
said what is written without saying how the indentation is produced. -/

namespace MdSpec
open MdRecover
namespace ReportText

/-- A line: its level of indentation and what is written. -/
abbrev Line := Nat × Bytes

/-- The bytes of a text: four spaces for each level, and a line end after each line. -/
def toBytes (l : List Line) : Bytes := l.flatMap fun x => List.replicate (4 * x.1) 32 ++ x.2 ++ [10]

/-- One text beside another: the first line of the second continues the last line of the first. -/
def beside : List Line → List Line → List Line
  | [], b => b
  | [x], [] => [x]
  | [(n, s)], (_, t) :: b => (n, s ++ t) :: b
  | x :: y :: a, b => x :: beside (y :: a) b

/-- A text of one line. -/
def word (t : Bytes) : List Line := [(0, t)]

/-- The text one level deeper. -/
def deeper (l : List Line) : List Line := l.map fun x => (x.1 + 1, x.2)

/-- Items between brackets: each item begins a new line, one level deeper, and is followed by a comma.  If
there are no items, there is nothing between the brackets. -/
def bracket (opening closing : Bytes) (items : List (List Line)) : List Line :=
  if items = [] then word (opening ++ closing)
  else word opening ++ items.flatMap (fun i => deeper (beside i (word (ascii ",")))) ++ word closing

/-- A number in decimal. -/
def number (n : Nat) : List Line := word (ascii (toString n))

/-- A name with a value in parentheses. -/
def wrapped (name : String) (value : List Line) : List Line :=
  bracket (ascii name ++ ascii "(") (ascii ")") [value]

/-- A name with named values in braces. -/
def record (name : String) (fields : List (String × List Line)) : List Line :=
  bracket (ascii name ++ ascii " {") (ascii "}")
    (fields.map fun f => beside (word (ascii f.1 ++ ascii ": ")) f.2)

/-- A value or none. -/
def optional {α : Type} (value : α → List Line) : Option α → List Line
  | none => word (ascii "None")
  | some a => wrapped "Some" (value a)

/-- Values in square brackets. -/
def row (l : List (List Line)) : List Line := bracket (ascii "[") (ascii "]") l

/-- Values in braces. -/
def collection (l : List (List Line)) : List Line := bracket (ascii "{") (ascii "}") l

/-! ## Paths and names -/

/-- The characters that are written as a backslash and another character. -/
def shortEscapes : List (Nat × UInt8) :=
  [(0, 48), (9, 116), (10, 110), (13, 114), (34, 34), (39, 39), (92, 92)]

/-- How a character is written: quotes, backslashes and some control characters after a backslash, other
characters that are not printable by their number in hexadecimal, and all others as they are. -/
def charText (printable : Nat → Bool) (c : Nat) : Bytes :=
  match shortEscapes.lookup c with
  | some e => [92, e]
  | none =>
    if printable c then utf8Of c
    else ascii "\\u{" ++ ascii (String.ofList (Nat.toDigits 16 c)) ++ ascii "}"

/-- How a byte that is not part of a character is written: two hexadecimal digits in upper case. -/
def strayText (b : UInt8) : Bytes :=
  ascii "\\x" ++ ascii (String.ofList ((Nat.toDigits 16 (256 + b.toNat)).tail.map Char.toUpper))

/-- The text of a byte string: character by character, from left to right; where no character begins, a byte by
itself. -/
inductive Shown (printable : Nat → Bool) : Bytes → Bytes → Prop
  | nil : Shown printable [] []
  | char {c : Nat} {rest t : Bytes} : IsScalar c → Shown printable rest t →
      Shown printable (utf8Of c ++ rest) (charText printable c ++ t)
  | stray {b : UInt8} {rest t : Bytes} : ¬ StartsWithChar (b :: rest) → Shown printable rest t →
      Shown printable (b :: rest) (strayText b ++ t)

/-! ## Values -/

/-- The name of a RAID5 layout. -/
def raid5Name : Raid5Algorithm → String
  | .leftAsymmetric => "LeftAsymmetric"
  | .rightAsymmetric => "RightAsymmetric"
  | .leftSymmetric => "LeftSymmetric"
  | .rightSymmetric => "RightSymmetric"
  | .parity0 => "Parity0"
  | .parityN => "ParityN"

/-- The name of a RAID6 layout. -/
def raid6Name : Raid6Algorithm → String
  | .leftAsymmetric => "LeftAsymmetric"
  | .rightAsymmetric => "RightAsymmetric"
  | .leftSymmetric => "LeftSymmetric"
  | .rightSymmetric => "RightSymmetric"
  | .parity0 => "Parity0"
  | .parityN => "ParityN"
  | .rotating0Restart => "Rotating0Restart"
  | .rotatingNRestart => "RotatingNRestart"
  | .rotatingNContinue => "RotatingNContinue"
  | .leftAsymmetric6 => "LeftAsymmetric6"
  | .rightAsymmetric6 => "RightAsymmetric6"
  | .leftSymmetric6 => "LeftSymmetric6"
  | .rightSymmetric6 => "RightSymmetric6"
  | .parity06 => "Parity06"

/-- A uuid: its bytes as numbers. -/
def uuid : ArrayUuid → List Line
  | .short b => wrapped "Short" (row (b.map fun x => number x.toNat))
  | .long b => wrapped "Long" (row (b.map fun x => number x.toNat))

/-- A level and layout of an array. -/
def algorithm : MdAlgorithm → List Line
  | .unsupported level layout => record "Unsupported" [("level", number level), ("layout", number layout)]
  | .raid5 a => wrapped "Raid5" (word (ascii (raid5Name a)))
  | .raid6 a => wrapped "Raid6" (word (ascii (raid6Name a)))

/-- The state of a reshape. -/
def reshape (r : ReshapeStatus) : List Line :=
  record "ReshapeStatus" [
    ("new_algorithm", algorithm r.newAlgorithm),
    ("reshape_position", wrapped "SectorNumber" (number r.reshapePosition)),
    ("delta_devices", wrapped "DeviceCount" (number r.deltaDevices)),
    ("new_chunk_size", wrapped "SectorCount" (number r.newChunkSize)),
    ("new_offset", number r.newOffset)]

/-- A device: its number and its path in quotes (`q`), if there is one. -/
def device (q : Bytes → Bytes) (i : MdDeviceId) : List Line :=
  record "MdDeviceId" [
    ("internal_index", number i.internalIndex),
    ("user_reference", optional (fun p => word (ascii "\"" ++ q p ++ ascii "\"")) i.userReference)]

/-- A set of devices. -/
def devices (q : Bytes → Bytes) (l : List MdDeviceId) : List Line := collection (l.map (device q))

/-- Differing values, each with the devices that have it. -/
def table {K : Type} (q : Bytes → Bytes) (key : K → List Line) (m : List (K × List MdDeviceId)) : List Line :=
  collection (m.map fun e => beside (beside (key e.1) (word (ascii ": "))) (row (e.2.map (device q))))

/-- A report: each kind of complaint under its name. -/
def report (q : Bytes → Bytes) (d : Diagnosis) : List Line :=
  record "Diagnosis" [
    ("device_too_small_problem", optional (devices q) d.deviceTooSmall),
    ("missing_superblock_problem", optional (devices q) d.missingSuperblock),
    ("array_uuid_problem", optional (table q uuid) d.arrayUuid),
    ("array_name_problem", optional (table q fun n => word (ascii "\"" ++ q n ++ ascii "\"")) d.arrayName),
    ("algorithm_problem", optional (table q algorithm) d.algorithm),
    ("size_problem", optional (table q fun n => wrapped "SectorCount" (number n)) d.size),
    ("chunk_size_problem", optional (table q fun n => wrapped "SectorCount" (number n)) d.chunkSize),
    ("device_count_problem", optional (table q fun n => wrapped "DeviceCount" (number n)) d.deviceCount),
    ("reshape_problem", optional (table q (optional reshape)) d.reshape),
    ("event_count_problem", optional (table q fun n => wrapped "MetadataEventCount" (number n)) d.eventCount),
    ("device_role_index_problem", optional (table q number) d.deviceRoleIndex),
    ("device_roles_problem",
      optional (table q fun l => row (l.map fun r => wrapped "MdDeviceRole" (number r.val))) d.deviceRoles)]

end ReportText
end MdSpec
