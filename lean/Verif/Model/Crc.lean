import Verif.Model.Basic

/-
The ext4 checksum function.  Models /repo/src/ext4/crc.rs, and the part of the `crc` crate
(version 3.4.0, `Crc<u32>` with one 256-entry table) that it uses: the crate is not in the
sandbox, so its table-driven update is modelled from its published source.
-/

namespace MdRecover

/-- The polynomial of `CRC_32_ISCSI`, 0x1EDC6F41, with its bits reversed: the crate stores
reflected algorithms this way (used by src/ext4/crc.rs 3-6). -/
def crcPoly : BitVec 32 := 0x82F63B78#32

/-- One step of the table construction of the `crc` crate (`util::crc32`, reflected case,
for src/ext4/crc.rs 3): shift right, and subtract the polynomial if a one was shifted out. -/
def crcShift (v : BitVec 32) : BitVec 32 :=
  if v.getLsbD 0 then (v >>> 1) ^^^ crcPoly else v >>> 1

/-- Entry `i` of the 256-entry table of the `crc` crate (for src/ext4/crc.rs 3): eight steps
from `i`. -/
def crcTable (i : BitVec 8) : BitVec 32 :=
  crcShift (crcShift (crcShift (crcShift (crcShift (crcShift (crcShift (crcShift
    (i.setWidth 32))))))))

/-- `Digest::update` for one byte (called at src/ext4/crc.rs 12): table lookup with the low
byte of the register exclusive-or the input byte. -/
def crcUpdate (c : BitVec 32) (b : UInt8) : BitVec 32 :=
  crcTable ((c ^^^ b.toBitVec.setWidth 32).setWidth 8) ^^^ (c >>> 8)

/-- `EXT4_CRC32C_INITIAL` (src/ext4/crc.rs 8): the `init` value of `CRC_32_ISCSI`. -/
def crcInitial : BitVec 32 := 0xffffffff#32

/-- `ext4_crc32c` (src/ext4/crc.rs 10-14).  `digest_with_initial` reverses the bits of its
argument for a reflected algorithm, which undoes the `reverse_bits` of line 11, so the
register starts as `initial`; `finalize` exclusive-ors `xorout`, which line 4 sets to 0. -/
def ext4Crc32c (initial : BitVec 32) (bytes : Bytes) : BitVec 32 :=
  bytes.foldl crcUpdate initial

end MdRecover
