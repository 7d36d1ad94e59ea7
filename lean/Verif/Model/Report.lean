import Verif.Model.Main
import Verif.Model.Utf8
import Mathlib.Data.Nat.Digits.Defs

/-! The text the program writes: `{:#?}` of a diagnosis (src/main.rs 41) as the derived implementations of
`Debug` write it, and `Display` of an array's uuid.  Texts are given by their UTF-8 bytes. -/

namespace MdRecover

/-- The bytes of a string literal (Rust source); all of them are ASCII here. -/
def ascii (s : String) : Bytes := s.toList.map fun c => UInt8.ofNat c.toNat

namespace Debug

/-- `PadAdapter::write_str` (library/core/src/fmt/builders.rs): four spaces before each line.  The first
argument is the state `on_newline`. -/
def pad : Bool → Bytes → Bytes
  | _, [] => []
  | onNewline, c :: rest => (if onNewline then ascii "    " else []) ++ c :: pad (c == 10) rest

/-- The text of a list of entries, each written through a new `PadAdapter` and followed by a comma and a new
line (library/core/src/fmt/builders.rs, the alternate form of `DebugStruct::field`, `DebugTuple::field`,
`DebugInner::entry` and `DebugMap::value`). -/
def entries (l : List Bytes) : Bytes := l.flatMap fun t => pad true (t ++ ascii ",\n")

/-- `debug_struct` with its fields (library/core/src/fmt/builders.rs), as `#[derive(Debug)]` uses it for
structs with named fields; there is at least one field here. -/
def struct (name : String) (fields : List (String × Bytes)) : Bytes :=
  ascii name ++ ascii " {\n" ++ entries (fields.map fun f => ascii f.1 ++ ascii ": " ++ f.2) ++ ascii "}"

/-- `debug_tuple` with one field (library/core/src/fmt/builders.rs), as `#[derive(Debug)]` uses it for
`Some(x)`, newtypes and variants of enums. -/
def tuple1 (name : String) (x : Bytes) : Bytes :=
  ascii name ++ ascii "(\n" ++ entries [x] ++ ascii ")"

/-- The line end after an opening bracket (library/core/src/fmt/builders.rs): only before a first entry. -/
def opened (l : List Bytes) : Bytes := if l = [] then [] else ascii "\n"

/-- `debug_list` (library/core/src/fmt/builders.rs): arrays and `Vec`. -/
def list (l : List Bytes) : Bytes := ascii "[" ++ opened l ++ entries l ++ ascii "]"

/-- `debug_set` (library/core/src/fmt/builders.rs): `HashSet`. -/
def set (l : List Bytes) : Bytes := ascii "{" ++ opened l ++ entries l ++ ascii "}"

/-- `debug_map` (library/core/src/fmt/builders.rs): `HashMap`. -/
def map (l : List (Bytes × Bytes)) : Bytes := set (l.map fun e => e.1 ++ ascii ": " ++ e.2)

/-- `Option` (library/core/src/option.rs, derived). -/
def option {α : Type} (f : α → Bytes) : Option α → Bytes
  | none => ascii "None"
  | some a => tuple1 "Some" (f a)

/-- A digit in lower case (library/core/src/fmt/num.rs, `LowerHex`; decimal digits as well). -/
def digit (d : Nat) : UInt8 := if d < 10 then UInt8.ofNat (48 + d) else UInt8.ofNat (87 + d)

/-- A digit in upper case (library/core/src/fmt/num.rs, `UpperHex`). -/
def upperDigit (d : Nat) : UInt8 := if d < 10 then UInt8.ofNat (48 + d) else UInt8.ofNat (55 + d)

/-- A number in base `b` without leading zeros (library/core/src/fmt/num.rs). -/
def number (b n : Nat) : Bytes := if n = 0 then ascii "0" else (Nat.digits b n).reverse.map digit

/-- `Debug` of an unsigned integer (library/core/src/fmt/num.rs): decimal. -/
def decimal (n : Nat) : Bytes := number 10 n

/-- The code point of a character given by its bytes (`char_indices`, library/core/src/str). -/
def codePoint : Bytes → Nat
  | [a] => a.toNat
  | [a, b] => (a.toNat - 0xc0) * 64 + (b.toNat - 0x80)
  | [a, b, c] => (a.toNat - 0xe0) * 4096 + (b.toNat - 0x80) * 64 + (c.toNat - 0x80)
  | [a, b, c, d] =>
    (a.toNat - 0xf0) * 262144 + (b.toNat - 0x80) * 4096 + (c.toNat - 0x80) * 64 + (d.toNat - 0x80)
  | _ => 0

/-- `char::escape_debug` (library/core/src/char/methods.rs) of a character given by its bytes.  `printable`
stands for the Unicode tables consulted there (`is_printable` and not `is_grapheme_extended`). -/
def escape (printable : Nat → Bool) (c : Bytes) : Bytes :=
  if codePoint c = 0 then ascii "\\0"
  else if codePoint c = 9 then ascii "\\t"
  else if codePoint c = 13 then ascii "\\r"
  else if codePoint c = 10 then ascii "\\n"
  else if codePoint c = 92 then ascii "\\\\"
  else if codePoint c = 34 then ascii "\\\""
  else if codePoint c = 39 then ascii "\\'"
  else if printable (codePoint c) then c
  else ascii "\\u{" ++ number 16 (codePoint c) ++ ascii "}"

/-- `\x{:02X}` of a byte that is not part of a character (library/core/src/str/lossy.rs). -/
def escapeByte (b : UInt8) : Bytes :=
  ascii "\\x" ++ [upperDigit (b.toNat / 16), upperDigit (b.toNat % 16)]

/-- The loop of `Debug` for `Utf8Chunks` (library/core/src/str/lossy.rs).  `n` bounds the number of rounds;
each takes at least a byte. -/
def osStrFuel (printable : Nat → Bool) : Nat → Bytes → Bytes
  | 0, _ => []
  | n + 1, b =>
    if b = [] then []
    else (if (Utf8.round b).2 then escape printable (b.take (Utf8.round b).1)
        else (b.take (Utf8.round b).1).flatMap escapeByte) ++
      osStrFuel printable n (b.drop (Utf8.round b).1)

/-- `Debug` for `OsStr` on Unix (library/std/src/sys/os_str/bytes.rs, library/core/src/str/lossy.rs). -/
def osStr (printable : Nat → Bool) (b : Bytes) : Bytes :=
  ascii "\"" ++ osStrFuel printable b.length b ++ ascii "\""

/-- `Debug` of the bytes of a uuid (arrays in library/core/src/array/mod.rs). -/
def bytes (b : Bytes) : Bytes := list (b.map fun x => decimal x.toNat)

/-- `Debug for ArrayUuid` (src/md/superblock/array_uuid.rs 6-10). -/
def arrayUuid : ArrayUuid → Bytes
  | .short b => tuple1 "Short" (bytes b)
  | .long b => tuple1 "Long" (bytes b)

/-- `Debug for Raid5Algorithm` (src/md/raid5/algorithm.rs 3-17). -/
def raid5 : Raid5Algorithm → Bytes
  | .leftAsymmetric => ascii "LeftAsymmetric"
  | .rightAsymmetric => ascii "RightAsymmetric"
  | .leftSymmetric => ascii "LeftSymmetric"
  | .rightSymmetric => ascii "RightSymmetric"
  | .parity0 => ascii "Parity0"
  | .parityN => ascii "ParityN"

/-- `Debug for Raid6Algorithm` (src/md/raid6/algorithm.rs 5-35). -/
def raid6 : Raid6Algorithm → Bytes
  | .leftAsymmetric => ascii "LeftAsymmetric"
  | .rightAsymmetric => ascii "RightAsymmetric"
  | .leftSymmetric => ascii "LeftSymmetric"
  | .rightSymmetric => ascii "RightSymmetric"
  | .parity0 => ascii "Parity0"
  | .parityN => ascii "ParityN"
  | .rotating0Restart => ascii "Rotating0Restart"
  | .rotatingNRestart => ascii "RotatingNRestart"
  | .rotatingNContinue => ascii "RotatingNContinue"
  | .leftAsymmetric6 => ascii "LeftAsymmetric6"
  | .rightAsymmetric6 => ascii "RightAsymmetric6"
  | .leftSymmetric6 => ascii "LeftSymmetric6"
  | .rightSymmetric6 => ascii "RightSymmetric6"
  | .parity06 => ascii "Parity06"

/-- `Debug for MdAlgorithm` (src/md/algorithm.rs 6-11). -/
def algorithm : MdAlgorithm → Bytes
  | .unsupported level layout =>
    struct "Unsupported" [("level", decimal level), ("layout", decimal layout)]
  | .raid5 a => tuple1 "Raid5" (raid5 a)
  | .raid6 a => tuple1 "Raid6" (raid6 a)

/-- `Debug for SectorCount` (src/md/units/sector_count.rs 7-11). -/
def sectorCount (n : Nat) : Bytes := tuple1 "SectorCount" (decimal n)
/-- `Debug for SectorNumber` (src/md/units/sector_number.rs 9-11). -/
def sectorNumber (n : Nat) : Bytes := tuple1 "SectorNumber" (decimal n)
/-- `Debug for DeviceCount` (src/md/units/device_count.rs 5-9). -/
def deviceCount (n : Nat) : Bytes := tuple1 "DeviceCount" (decimal n)
/-- `Debug for MetadataEventCount` (src/md/units/metadata_event_count.rs 5-9). -/
def eventCount (n : Nat) : Bytes := tuple1 "MetadataEventCount" (decimal n)
/-- `Debug for MdDeviceRole` (src/md/superblock/role.rs 5-6). -/
def role (r : Role) : Bytes := tuple1 "MdDeviceRole" (decimal r.val)

/-- `Debug for ReshapeStatus` (src/md/superblock/reshape_status.rs 4-11). -/
def reshape (r : ReshapeStatus) : Bytes :=
  struct "ReshapeStatus"
    [("new_algorithm", algorithm r.newAlgorithm), ("reshape_position", sectorNumber r.reshapePosition),
     ("delta_devices", deviceCount r.deltaDevices), ("new_chunk_size", sectorCount r.newChunkSize),
     ("new_offset", decimal r.newOffset)]

/-- `Debug for MdDeviceId` (src/md/device/id.rs 7-11); `Rc` adds nothing. -/
def deviceId (printable : Nat → Bool) (i : MdDeviceId) : Bytes :=
  struct "MdDeviceId"
    [("internal_index", decimal i.internalIndex), ("user_reference", option (osStr printable) i.userReference)]

/-- `Debug` of a `HashMap` with keys written by `key` and values `Vec<Rc<MdDeviceId>>` (Rust std, for
src/md/diagnosis/diagnosis.rs 13-22), iterated in the order `ord`. -/
def groups {K : Type} (ord : IterOrder) (printable : Nat → Bool) (key : K → Bytes)
    (m : HMap K (List MdDeviceId)) : Bytes :=
  map ((ord _ m).map fun e => (key e.1, list (e.2.map (deviceId printable))))

/-- `Debug for Diagnosis` (src/md/diagnosis/diagnosis.rs 9-23), in the alternate form. -/
def diagnosis (ord : IterOrder) (printable : Nat → Bool) (d : Diagnosis) : Bytes :=
  let ids := option fun l => set ((ord _ l).map (deviceId printable))
  struct "Diagnosis"
    [("device_too_small_problem", ids d.deviceTooSmall),
     ("missing_superblock_problem", ids d.missingSuperblock),
     ("array_uuid_problem", option (groups ord printable arrayUuid) d.arrayUuid),
     ("array_name_problem", option (groups ord printable (osStr printable)) d.arrayName),
     ("algorithm_problem", option (groups ord printable algorithm) d.algorithm),
     ("size_problem", option (groups ord printable sectorCount) d.size),
     ("chunk_size_problem", option (groups ord printable sectorCount) d.chunkSize),
     ("device_count_problem", option (groups ord printable deviceCount) d.deviceCount),
     ("reshape_problem", option (groups ord printable (option reshape)) d.reshape),
     ("event_count_problem", option (groups ord printable eventCount) d.eventCount),
     ("device_role_index_problem", option (groups ord printable decimal) d.deviceRoleIndex),
     ("device_roles_problem",
       option (groups ord printable fun l => list (l.map role)) d.deviceRoles)]

end Debug

/-- `Display for ArrayUuid` (src/md/superblock/array_uuid.rs 30-37): `{:02x}` of each byte, with nothing in
between (`format`, crate itertools). -/
def ArrayUuid.display : ArrayUuid → Bytes
  | .short b => b.flatMap fun x => [Debug.digit (x.toNat / 16), Debug.digit (x.toNat % 16)]
  | .long b => b.flatMap fun x => [Debug.digit (x.toNat / 16), Debug.digit (x.toNat % 16)]

/-- The standard output of `main` (src/main.rs 41, 43-45).  `quote` stands for `maybe_quote` of the crate
`os_display` and `message` for the text of an `io::Error`. -/
def Printed.text (ord : IterOrder) (printable : Nat → Bool) (quote : Bytes → Bytes)
    (message : ErrKind → Bytes) : Printed → Bytes
  | .diagnosis d => Debug.diagnosis ord printable d ++ ascii "\n"
  | .errors l => l.flatMap fun e => quote e.1 ++ ascii ": " ++ message e.2 ++ ascii "\n"

/-- The exit status of the process: `main` (src/main.rs 29) returns `()`, which is status 0, and a panic is
status 101 (Rust std). -/
def exitStatus : Res Printed → Nat
  | .panic => 101
  | _ => 0

end MdRecover
