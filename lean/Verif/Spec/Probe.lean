import Verif.Spec.MdOnDisk
import Verif.Model.MdDevice

/-! Where md superblocks are, and which one counts. -/

namespace MdSpec
open MdRecover

/-- There is a version-1 superblock at byte `off`. -/
def V1At (content : Bytes) (off : Nat) : Prop :=
  leNat (slice content off 4) = 0xa92b4efc ∧ leNat (slice content (off + 4) 4) = 1

/-- There is a version-0 superblock at byte `off`, in byte order `e`. -/
def V0At (content : Bytes) (off : Nat) (e : Endian) : Prop := V0Acceptable e (slice content off 4096)

/-- Place of the 1.0 superblock: the last multiple of 4096 that is at least 8192 bytes before the end. -/
def Place10 (size off : Nat) : Prop := 4096 ∣ off ∧ off + 8192 ≤ size ∧ size < off + 8192 + 4096

/-- Place of the 0.90 superblock: the last whole 65536-byte block starting at a multiple of 65536. -/
def Place090 (size off : Nat) : Prop := 65536 ∣ off ∧ off + 65536 ≤ size ∧ size < off + 2 * 65536

/-- A version-1 superblock at `off` as the device's superblock. -/
def v1Result (content : Bytes) (off minor : Nat) : DeviceSuperblock :=
  .superblock (SuperblockV1.mk (slice content off 4096) minor).toSuperblock

/-- A version-0 superblock at `off` as the device's superblock. -/
def v0Result (content : Bytes) (off : Nat) (e : Endian) : DeviceSuperblock :=
  .superblock (SuperblockV0.ofView e (slice content off 4096)).toSuperblock

/-- The superblock a device with this content should be found to have: the first of 1.2, 1.1, 1.0 and (from
64 KiB on) 0.90 that is there. -/
inductive Expected (content : Bytes) : DeviceSuperblock → Prop
  | tooSmall : content.length < 12288 → Expected content .tooSmall
  | v12 : 12288 ≤ content.length → V1At content 4096 → Expected content (v1Result content 4096 2)
  | v11 : 12288 ≤ content.length → ¬ V1At content 4096 → V1At content 0 →
      Expected content (v1Result content 0 1)
  | v10 {off} : 12288 ≤ content.length → ¬ V1At content 4096 → ¬ V1At content 0 →
      Place10 content.length off → V1At content off → Expected content (v1Result content off 0)
  | v090 {off₁ off₀ e} : 12288 ≤ content.length → ¬ V1At content 4096 → ¬ V1At content 0 →
      Place10 content.length off₁ → ¬ V1At content off₁ → Place090 content.length off₀ →
      V0At content off₀ e → Expected content (v0Result content off₀ e)
  | missing {off₁} : 12288 ≤ content.length → ¬ V1At content 4096 → ¬ V1At content 0 →
      Place10 content.length off₁ → ¬ V1At content off₁ →
      (∀ off₀ e, Place090 content.length off₀ → ¬ V0At content off₀ e) → Expected content .missing

/-- A superblock that is really on the device, at one of the four places. -/
def Genuine (content : Bytes) (sb : DeviceSuperblock) : Prop :=
  (V1At content 4096 ∧ sb = v1Result content 4096 2) ∨
  (V1At content 0 ∧ sb = v1Result content 0 1) ∨
  (∃ off, Place10 content.length off ∧ V1At content off ∧ sb = v1Result content off 0) ∨
  (∃ off e, Place090 content.length off ∧ V0At content off e ∧ sb = v0Result content off e)

end MdSpec
