import Verif.Model.StreamDevice
import Verif.Spec.Device
import Verif.Spec.Stream

namespace MdSpec
open MdRecover

/-- `dev` is a block device that is also a byte stream over its content followed by a tail `t` (bytes after
the last whole block).  `At w d p`: the stream position is `p`.  Errors may occur iff `F`. -/
structure StreamDevSpec {W D : Type} (F : Prop) (dev : StreamDev W D) (G : W → Prop)
    (Is : D → Disk → Bytes → Prop) (At : W → D → Nat → Prop) : Prop where
  toDev : DevSpec F dev.toBlockDev G (fun d k => ∃ t, Is d k t)
  seek : ∀ {w d k t}, G w → Is d k t → ∀ p, p ≤ k.content.length → ∀ {w' d' r},
    dev.seek (.start p) (w, d) = ((w', d'), r) →
    G w' ∧ Is d' k t ∧ ((r = .ok p ∧ At w' d' p) ∨ (F ∧ ∃ e, r = .err e))
  read : ∀ {w d k t p}, G w → Is d k t → At w d p → ∀ buf, ∀ {w' d' r},
    dev.read buf (w, d) = ((w', d'), r) →
    G w' ∧ Is d' k t ∧
      ((∃ j buf' p', r = .ok (j, buf') ∧ StreamRead (k.content ++ t) p buf j buf' p' ∧ At w' d' p') ∨
        (F ∧ ∃ e, r = .err e))

end MdSpec
