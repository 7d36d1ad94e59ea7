import Verif.Model.BlockDevice

/-! What it means for a value to behave as a block device with given content, possibly failing. -/

namespace MdSpec
open MdRecover

/-- A disk: block size, number of blocks, content. -/
structure Disk where
  bs : Nat
  n : Nat
  content : Bytes

/-- Machine bounds: the block size is a non-zero `u32`, the size is a `u64`. -/
structure Disk.Wf (k : Disk) : Prop where
  bs_pos : 0 < k.bs
  bs_lt : k.bs < U32
  len : k.content.length = k.n * k.bs
  size_lt : k.n * k.bs < U64

/-- The outcome is `Ok a`, or, if failures are allowed (`F`), an error. -/
def Gives {α : Type} (F : Prop) (r : Res α) (a : α) : Prop := r = .ok a ∨ (F ∧ ∃ e, r = .err e)

/-- `dev` implements the `BlockDevice` interface: in every world satisfying `G`, a handle `d` with
`Is d k` answers as disk `k`, or, if `F`, with an error, at any call.  Nothing is required for block
numbers out of range and for buffers that are not of the block size.  `F := True`: the device may fail at
any time; `F := False`: it never fails. -/
structure DevSpec {W D : Type} (F : Prop) (dev : BlockDev W D) (G : W → Prop)
    (Is : D → Disk → Prop) : Prop where
  wf : ∀ {d k}, Is d k → k.Wf
  blockSize : ∀ {w d k}, G w → Is d k →
    G (dev.blockSize d w).1 ∧ Gives F (dev.blockSize d w).2 k.bs
  blockCount : ∀ {w d k}, G w → Is d k →
    G (dev.blockCount d w).1 ∧ Gives F (dev.blockCount d w).2 k.n
  readBlock : ∀ {w d k}, G w → Is d k → ∀ b buf, b < k.n → buf.length = k.bs →
    G (dev.readBlock b buf (w, d)).1.1 ∧ Is (dev.readBlock b buf (w, d)).1.2 k ∧
      Gives F (dev.readBlock b buf (w, d)).2 (k.bs, (k.content.drop (b * k.bs)).take k.bs)
  tryClone : ∀ {w d k}, G w → Is d k → G (dev.tryClone d w).1 ∧
    ((∃ d', (dev.tryClone d w).2 = .ok d' ∧ Is d' k) ∨
      (F ∧ ∃ e, (dev.tryClone d w).2 = .err e))

end MdSpec
