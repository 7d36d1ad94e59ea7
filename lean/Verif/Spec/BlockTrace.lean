import Verif.Model.BlockDevice

/-! What block devices are asked for: devices with names that keep a log of the blocks read. -/

namespace MdSpec
open MdRecover

/-- The same device; a handle has a name, which its clones share, and the blocks read are recorded with it. -/
def namedDev {W D : Type} (N : Type) (dev : BlockDev W D) : BlockDev (W × List (N × Nat)) (N × D) where
  blockSize d := SM.zoom Prod.fst (fun s w => (w, s.2)) (dev.blockSize d.2)
  blockCount d := SM.zoom Prod.fst (fun s w => (w, s.2)) (dev.blockCount d.2)
  readBlock b buf := fun s => match dev.readBlock b buf (s.1.1, s.2.2) with
    | ((w, d), r) => (((w, s.1.2 ++ [(s.2.1, b)]), (s.2.1, d)), r)
  tryClone d := fun s => match dev.tryClone d.2 s.1 with
    | (w, .ok d') => ((w, s.2), .ok (d.1, d'))
    | (w, .err e) => ((w, s.2), .err e)
    | (w, .panic) => ((w, s.2), .panic)

/-- The blocks, of `bs` bytes each, in which the `n` bytes from `p` on are, in order. -/
def touched (p n bs : Nat) : List Nat :=
  if n = 0 then [] else List.range' (p / bs) ((p + n - 1) / bs + 1 - p / bs)

/-- The blocks of member `d` in which a sector of 512 bytes is, under the name of that member. -/
def sectorOf {N : Type} (name : Nat → N) (bs : Nat → Nat) (sector d : Nat) : List (N × Nat) :=
  (touched (sector * 512) 512 (bs d)).map fun b => (name d, b)

/-- The blocks of the members of a RAID6 array of `n` devices with chunks of `c` sectors that belong to the same
stripe sector as sector `s` of the array, in the order of the members. -/
def stripeOf {N : Type} (name : Nat → N) (bs : Nat → Nat) (n c s : Nat) : List (N × Nat) :=
  (List.range n).flatMap (sectorOf name bs (s / (c * (n - 2)) * c + s % c))

end MdSpec
