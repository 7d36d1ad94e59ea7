import Verif.Spec.Patchy
import Verif.Spec.StreamDevice
import Verif.Spec.Probe

/-! Devices some bytes of which can never be read, and which superblock is found on them. -/

namespace MdSpec
open MdRecover

/-- A device as a byte stream, the bytes `bad` of which can never be read: a read that would not touch any of them
succeeds, and a read that succeeds has not returned any of them.  Nothing else fails. -/
structure FlawedStream {W D : Type} (bad : Nat → Prop) (dev : StreamDev W D) (G : W → Prop)
    (Is : D → Disk → Bytes → Prop) (At : W → D → Nat → Prop) : Prop
    extends StreamDevSpec True dev G Is At where
  sizeOk : ∀ {w d k t}, G w → Is d k t → (dev.blockSize d w).2 = .ok k.bs ∧ (dev.blockCount d w).2 = .ok k.n
  seekOk : ∀ {w d k t}, G w → Is d k t → ∀ p, p ≤ k.content.length →
    ∃ q, (dev.seek (.start p) (w, d)).2 = .ok q
  readOk : ∀ {w d k t p}, G w → Is d k t → At w d p → ∀ buf, Intact bad (k.content ++ t) p buf.length →
    ∃ a, (dev.read buf (w, d)).2 = .ok a
  readNo : ∀ {w d k t p}, G w → Is d k t → At w d p → ∀ buf n buf', (dev.read buf (w, d)).2 = .ok (n, buf') →
    Intact bad (k.content ++ t) p n

/-- There is a superblock at byte `off`, of the version that belongs at this place. -/
def HoldsSuperblock (content : Bytes) (off : Nat) : Prop :=
  ((off = 4096 ∨ off = 0 ∨ Place10 content.length off) ∧ V1At content off) ∨
    (Place090 content.length off ∧ ∃ e, V0At content off e)

/-- The superblock found on a device if only what is at the places `readable` counts: the first of 1.2, 1.1, 1.0
and (from 64 KiB on) 0.90 that is there and readable. -/
inductive ExpectedAmong (readable : Nat → Prop) (content : Bytes) : DeviceSuperblock → Prop
  | tooSmall : content.length < 12288 → ExpectedAmong readable content .tooSmall
  | v12 : 12288 ≤ content.length → V1At content 4096 → readable 4096 →
      ExpectedAmong readable content (v1Result content 4096 2)
  | v11 : 12288 ≤ content.length → ¬ (V1At content 4096 ∧ readable 4096) → V1At content 0 → readable 0 →
      ExpectedAmong readable content (v1Result content 0 1)
  | v10 {off} : 12288 ≤ content.length → ¬ (V1At content 4096 ∧ readable 4096) → ¬ (V1At content 0 ∧ readable 0) →
      Place10 content.length off → V1At content off → readable off →
      ExpectedAmong readable content (v1Result content off 0)
  | v090 {off₁ off₀ e} : 12288 ≤ content.length → ¬ (V1At content 4096 ∧ readable 4096) →
      ¬ (V1At content 0 ∧ readable 0) → Place10 content.length off₁ → ¬ (V1At content off₁ ∧ readable off₁) →
      Place090 content.length off₀ → V0At content off₀ e → readable off₀ →
      ExpectedAmong readable content (v0Result content off₀ e)
  | missing {off₁} : 12288 ≤ content.length → ¬ (V1At content 4096 ∧ readable 4096) →
      ¬ (V1At content 0 ∧ readable 0) → Place10 content.length off₁ → ¬ (V1At content off₁ ∧ readable off₁) →
      (∀ off₀ e, Place090 content.length off₀ → ¬ (V0At content off₀ e ∧ readable off₀)) →
      ExpectedAmong readable content .missing

end MdSpec
