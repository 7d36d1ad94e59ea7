import Verif.Lemmas.TreeFound
import Verif.Props.Ext4Tree
import Verif.Props.PathFound

/-! C126: a tree that is returned is on the volume. -/

namespace MdRecover
open MdSpec Fixture
variable [Build]

/-- C126: whatever the volume contains, however damaged it is, and whatever fails: if the program that reads whole
trees returns a tree, then that tree is on the volume. -/
theorem C126_backed {W D : Type} {F : Prop} {dev : StreamDev W D} {G : W → Prop} {Is : D → Bytes → Prop}
    {At : W → D → Nat → Prop} (hv : VolumeSpec F dev G Is At) (c : Bytes) (hl : c.length < U64)
    (ht : TableChecked c) (hcount : AllCounted c) (w : W) (hG : G w) (d : D) (hd : Is d c)
    (rounds depth : Nat) (x : Tree) (h : (readTree dev rounds depth d w).2 = .ok (some x)) :
    Ext4Readable (sbOf c) ∧ TreeFound c depth 2 x := by
  obtain ⟨w', r, h1, hG', h2⟩ := Ext4Fs.open_spec hv hG hd ht
  rw [readTree] at h
  rcases h2 with ⟨fs, rfl, ho, -⟩ | ⟨-, e, rfl⟩ | ⟨-, rfl⟩
  · rw [SM.bind_ok (h := h1)] at h
    rcases h3 : walk dev rounds depth 2 (w', fs) with ⟨s', r⟩
    have h : (walk dev rounds depth 2 (w', fs)).2 = .ok (some x) := h
    rw [h3] at h
    simp only at h
    subst h
    exact ⟨ho.readable, (walk_backed hv hl hcount depth hG' ho h3).2.2⟩
  · rw [SM.bind_err (h := h1)] at h
    cases h
  · rw [SM.bind_panic (h := h1)] at h
    cases h

/-- C126, on a RAID6 array with members that may fail. -/
theorem C126_array {W D : Type} {F : Prop} {dev : BlockDev W D} {G : W → Prop} {Is : D → Disk → Prop}
    (hd : DevSpec F dev G Is) {ord : IterOrder} (hord : ord.Valid) {L n c size : Nat} {alg : Raid6Algorithm}
    {members : Nat → Disk} {devices : List (MdDevice D)} {content : Bytes}
    (hL : Raid6Algorithm.fromLayout L = some alg) (hr : ReadableSet Is alg n c size members devices)
    (hset : Raid6Set L n c size members content) (hl : content.length < U64) (ht : TableChecked content)
    (hcount : AllCounted content) (w : W) (hG : G w) (rounds depth : Nat) (x : Tree)
    (h : (readTree (Reader.streamDev (MdArray.dev dev)) rounds depth (Reader.new (MdArray.open ord devices)) w).2
      = .ok (some x)) : Ext4Readable (sbOf content) ∧ TreeFound content depth 2 x := by
  have ha := C16_array_device_partial hd hord hL hr hset
  exact C126_backed (Reader.seekableVolume ha ⟨512, size * (n - 2), content⟩).toVolumeSpec content hl ht hcount w
    hG _ ⟨rfl, 0, Reader.at_new (ha.wf ⟨rfl, rfl⟩) ⟨rfl, rfl⟩⟩ rounds depth x h

omit [Build] in
/-- C126: each file of a returned tree is what C112 calls backed: at the end of the path to it, the content is that
of blocks of the file reached.  (If a name is shown twice in a directory, the path leads to the first.) -/
theorem C126_content {c : Bytes} {k n : Nat} {b : Bytes} (h : TreeFound c (k + 1) n (.file b)) (path : List Bytes)
    (hp : Reaches c 2 path n) : Backed c path (.content b) := by
  obtain ⟨h1, h2, h3, xs, h4, h5, h6, rfl⟩ := h
  exact .content n xs hp h1 h2 h3 h4 h5 h6

/-! ## A case -/

/-- The sizes on a written volume are small enough. -/
theorem MkfsLemmas.counted_volume {k : Mkfs.Form} {t : List Node} {c tail : Bytes} (hc : c = Mkfs.volume k t ++ tail)
    (hf : Mkfs.Fits k t) : AllCounted c := by
  intro n hn
  refine .inr ?_
  have hv := MkfsLemmas.values_volume hc hf
  rcases MkfsLemmas.inode_cases hc hf n hn.pos (by rw [← hv.inodes]; exact hn.le) with ⟨i, nd, rfl, hi⟩ | h
  · obtain ⟨-, -, h1, -, -, -⟩ := MkfsLemmas.inode_volume hc hf i nd hi
    have hs := (MkfsLemmas.inode_volume hc hf i nd hi).2.2.2.2.1
    have hm := List.mem_of_getElem? hi
    rw [hs, MkfsLemmas.blockSize_volume hc hf]
    have h1 := (MkfsLemmas.blocks_hold (k := k) nd).1
    have h2 : Mkfs.blocks k nd * Mkfs.bs k ≤ (U32 - 1) * Mkfs.bs k :=
      Nat.mul_le_mul_right _ (by have := hf.sizes nd hm; show _ ≤ 2 ^ 32 - 1; omega)
    omega
  · have : MdSpec.sizeOf c n = 0 := by
      unfold MdSpec.sizeOf inodePart
      rw [h]
      have he : extraOf (zeros 128) = 0 := by
        unfold extraOf
        rw [zeros_len, if_neg (by decide)]
      rw [he, List.take_of_length_le (by rw [zeros_len])]
      simp [le_zeros]
    rw [this]
    exact Nat.zero_le _

/-- C126, a case: a volume written with the tree of C125, and anything behind it, on a device that may fail at any
time; `C125_case` is the tree that is returned if nothing fails. -/
theorem C126_case (K : Kernel) (b b' rest : Bytes) (hb : b.length ≤ 2 ^ 24) (hb' : b'.length ≤ 2 ^ 24)
    (hr : rest.length < 2 ^ 56) (rounds depth : Nat) (x : Tree)
    (h : (readTree FileDev.streamDev rounds depth ⟨5, Mkfs.volume 0 ((caseTree b b').rows 0) ++ rest, 512⟩ K).2
      = .ok (some x)) :
    TreeFound (Mkfs.volume 0 ((caseTree b b').rows 0) ++ rest) depth 2 x := by
  have hf := caseTree_fits b b' hb hb'
  have hl : (Mkfs.volume 0 ((caseTree b b').rows 0) ++ rest).length < U64 := by
    rw [List.length_append, MkfsLemmas.length_volume hf.sizes]
    have := hf.total
    have : Mkfs.bs 0 = 1024 := rfl
    rw [this]
    show _ < 2 ^ 64
    omega
  have hopen := MkfsLemmas.openable_volume (c := Mkfs.volume 0 ((caseTree b b').rows 0) ++ rest) rfl hf
  exact (C126_backed FileDev.volumeSpec_honest _ hl (.inr (by have := hopen.fits; omega))
    (MkfsLemmas.counted_volume rfl hf) K trivial ⟨5, _, 512⟩ rfl rounds depth x h).2

end MdRecover
