import Verif.Model.StreamDevice
import Verif.Spec.Stream

/-! A device seen as a sequence of bytes, as the filesystem code uses it. -/

namespace MdSpec
open MdRecover

/-- `dev` behaves as a byte sequence: a handle `d` with `Is d c` answers as the bytes `c`; `At w d p`
says that its position is `p`.  Reads are stream reads.  Seeking inside `c`, or to its end, goes there;
seeking beyond may fail, or go to any place where there is nothing to read.  If `F`, every call may fail.
Nothing panics. -/
structure VolumeSpec {W D : Type} (F : Prop) (dev : StreamDev W D) (G : W → Prop)
    (Is : D → Bytes → Prop) (At : W → D → Nat → Prop) : Prop where
  seek : ∀ {w d c}, G w → Is d c → ∀ p, p < U64 → ∀ {w' d' r},
    dev.seek (.start p) (w, d) = ((w', d'), r) →
    G w' ∧ Is d' c ∧
      ((∃ q, r = .ok q ∧ At w' d' q ∧ (p ≤ c.length → q = p) ∧ (c.length < p → c.length ≤ q)) ∨
        ((F ∨ c.length < p) ∧ ∃ e, r = .err e))
  read : ∀ {w d c p}, G w → Is d c → At w d p → ∀ buf, ∀ {w' d' r},
    dev.read buf (w, d) = ((w', d'), r) →
    G w' ∧ Is d' c ∧
      ((∃ j buf' p', r = .ok (j, buf') ∧ StreamRead c p buf j buf' p' ∧ At w' d' p') ∨
        (F ∧ ∃ e, r = .err e))
  tryClone : ∀ {w d c}, G w → Is d c → ∀ {w' r}, dev.tryClone d w = (w', r) →
    G w' ∧ ((∃ d', r = .ok d' ∧ Is d' c) ∨ (F ∧ ∃ e, r = .err e))

end MdSpec
