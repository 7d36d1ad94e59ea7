import Verif.Props.Lost
import Verif.Props.ArrayDamage

/-! C138 on arrays: the sectors of a damaged array that cannot be reconstructed. -/

namespace MdRecover
open MdSpec

section
variable {W D : Type} {F : Prop} {dev : BlockDev W D} {G : W → Prop} {Is : D → Disk → Prop}

/-- A reader returns no byte of a block that the device below never returns. -/
theorem Reader.withholds (hd : DevSpec F dev G Is) {k : Disk} {lost : Nat → Prop}
    (hl : ∀ {w d}, G w → Is d k → ∀ b buf {s' r}, b < k.n → buf.length = k.bs →
      dev.readBlock b buf (w, d) = (s', .ok r) → ¬ lost b) :
    Withholds (fun x => lost (x / k.bs)) (Reader.streamDev dev) G
      (fun r c => c = k.content ∧ ∃ pos, Reader.At Is k r pos) (fun _ r p => Reader.At Is k r p) := by
  rintro w r c pos hG ⟨-, -⟩ hr buf s' j out h y y1 y2
  change Reader.read dev buf (w, r) = _ at h
  obtain ⟨hG1, hcnt⟩ := hd.blockCount hG hr.is
  rcases hbc : dev.blockCount r.device w with ⟨w1, x1⟩
  rw [hbc] at hG1 hcnt
  simp only at hG1 hcnt
  have hon1 : Reader.onWorld dev.blockCount (w, r) = ((w1, r), x1) := by simp only [Reader.onWorld, hbc]
  unfold Reader.read at h
  rw [SM.bind_ok (h := SM.get_apply _)] at h
  simp only at h
  rcases hcnt with rfl | ⟨hF, e, rfl⟩
  rotate_left
  · rw [SM.bind_err (h := hon1)] at h
    cases h
  rw [SM.bind_ok (h := hon1)] at h
  by_cases hend : k.n ≤ r.blockPos
  · rw [if_pos hend] at h
    cases h
    omega
  rw [if_neg hend] at h
  obtain ⟨hG2, hbs⟩ := hd.blockSize hG1 hr.is
  rcases hbc2 : dev.blockSize r.device w1 with ⟨w2, x2⟩
  rw [hbc2] at hG2 hbs
  simp only at hG2 hbs
  have hon2 : Reader.onWorld dev.blockSize (w1, r) = ((w2, r), x2) := by simp only [Reader.onWorld, hbc2]
  rcases hbs with rfl | ⟨hF, e, rfl⟩
  rotate_left
  · rw [SM.bind_err (h := hon2)] at h
    cases h
  rw [SM.bind_ok (h := hon2)] at h
  obtain ⟨-, -, hrb⟩ := hd.readBlock hG2 hr.is r.blockPos (zeros k.bs) (by omega) List.length_replicate
  rcases hbc3 : dev.readBlock r.blockPos (zeros k.bs) (w2, r.device) with ⟨⟨w3, d3⟩, x3⟩
  rw [hbc3] at hrb
  simp only at hrb
  have hon3 : Reader.onDevice (dev.readBlock r.blockPos (zeros k.bs)) (w2, r) =
      ((w3, { r with device := d3 }), x3) := by simp only [Reader.onDevice, SM.zoom, hbc3]
  rcases hrb with rfl | ⟨hF, e, rfl⟩
  rotate_left
  · rw [SM.bind_err (h := hon3)] at h
    cases h
  have hnot := hl hG2 hr.is r.blockPos (zeros k.bs) (by omega) List.length_replicate hbc3
  rw [SM.bind_ok (h := hon3)] at h
  simp only [Reader.copyOut] at h
  rw [SM.bind_ok (h := SM.get_apply _)] at h
  simp only at h
  have hlt := hr.byte_lt
  rw [SM.bind_ok (a := k.bs - r.bytePos) (s' := (w3, { r with device := d3 }))
    (h := by simp [subP, Nat.le_of_lt hlt])] at h
  rw [SM.bind_ok (h := SM.modify_apply _ _)] at h
  rw [SM.pure_apply] at h
  cases h
  have hpe := hr.pos_eq
  have : y / k.bs = r.blockPos := by
    refine Nat.div_eq_of_lt_le (by omega) ?_
    rw [Nat.add_mul]
    omega
  simp only [this]
  exact hnot

/-- C138, arrays: members of a RAID6 set, in each sector of which at most one was damaged (as in C100).  The array is a
device with the content that was written, and it never returns a byte of a sector with damage on data or P of its
stripe. -/
theorem C138_array (hd : DevSpec F dev G Is) {ord : IterOrder} (hord : ord.Valid)
    {L n c size : Nat} {alg : Raid6Algorithm} {good bad : Nat → Disk} {content : Bytes}
    {devices : List (MdDevice D)} (hL : Raid6Algorithm.fromLayout L = some alg)
    (hr : ReadableSet Is alg n c size bad devices) (hset : Raid6Set L n c size good content)
    (hdam : OneDamaged n size good bad) :
    ∃ (IsA : Reader (ArrayDef D) → Bytes → Prop) (AtA : W → Reader (ArrayDef D) → Nat → Prop),
      IsA (Reader.new (MdArray.open ord devices)) content ∧
      VolumeSpec True (Reader.streamDev (MdArray.dev dev)) G IsA AtA ∧
      Withholds (fun x => Affected L n c good bad (x / 512)) (Reader.streamDev (MdArray.dev dev)) G IsA AtA := by
  have ha := C100_array_device hd hord hL hr hset hdam
  refine ⟨_, _, ⟨rfl, 0, Reader.at_new (ha.wf ⟨rfl, rfl⟩) ⟨rfl, rfl⟩⟩,
    (Reader.seekableVolume ha ⟨512, size * (n - 2), content⟩).toVolumeSpec, ?_⟩
  refine Reader.withholds ha (k := ⟨512, size * (n - 2), content⟩) (lost := Affected L n c good bad) ?_
  rintro w d hG ⟨rfl, -⟩ b buf s' r hb hl h hA
  obtain ⟨disks, h1, h2⟩ := hr.disks hord
  obtain ⟨-, -, k3⟩ := MdArray.readBlock_spec hd h1 b buf hG
  have h' : ((MdArray.dev dev).readBlock b buf (w, MdArray.open ord devices)).2 = .ok r := by rw [h]
  rcases k3 with ⟨-, e, k3⟩ | k3
  · cases k3.symm.trans h'
  rcases pure_readSector_damaged hL hset hdam h2 hb with ⟨hA', -⟩ | ⟨-, hs⟩
  · exact hA' hA
  rw [hr.formatInUse] at k3
  unfold MdArray.pureRead at k3
  simp only at hl hb
  rw [if_neg (by omega)] at k3
  simp only [MdAlgorithm.readSector] at k3
  rw [hs] at k3
  cases k3.symm.trans h'

/-- C138, files on arrays: what is found at a path of a damaged array is there whatever was written in the sectors with
damage on data or P of their stripes. -/
theorem C138_array_path [Build] (hd : DevSpec F dev G Is) {ord : IterOrder} (hord : ord.Valid)
    {L n c size : Nat} {alg : Raid6Algorithm} {good bad : Nat → Disk} {content content' : Bytes}
    {devices : List (MdDevice D)} (hL : Raid6Algorithm.fromLayout L = some alg)
    (hr : ReadableSet Is alg n c size bad devices) (hset : Raid6Set L n c size good content)
    (hdam : OneDamaged n size good bad)
    (hs : SameExcept (fun x => Affected L n c good bad (x / 512)) content content') (ht : TableChecked content')
    (hcount : AllCounted content') (w : W) (hG : G w) (names : List Bytes) (rounds : Nat) (out : Found)
    (hne : out ≠ .running) (h : (readPath (Reader.streamDev (MdArray.dev dev)) rounds
      (Reader.new (MdArray.open ord devices)) names w).2 = .ok out) :
    Ext4Readable (sbOf content') ∧ Backed content' names out := by
  obtain ⟨IsA, AtA, h1, h2, h3⟩ := C138_array hd hord hL hr hset hdam
  have hlen : content.length < U64 := by
    rw [hset.length]
    exact hset.bytes_lt
  exact C138_path h2 h3 content content' hs hlen ht hcount w hG _ h1 names rounds out hne h

end

/-- C138, arrays, a case: the array of C100 with damage to data of its second stripe.  Reading it is reading a volume
that starts with 1024 sevens and goes on with whatever one likes. -/
theorem C138_array_case {ord : IterOrder} (hord : ord.Valid) :
    ∃ (IsA : Reader (ArrayDef InMemory) → Bytes → Prop) (AtA : Unit → Reader (ArrayDef InMemory) → Nat → Prop),
      VolumeSpec True (Reader.streamDev (MdArray.dev InMemory.dev)) (fun _ => True) IsA AtA ∧
      ∀ z : Bytes, z.length = 1024 → IsA (Reader.new (MdArray.open ord
        (memMembers .leftSymmetric 4 1 2 0 Fixture.scratched fun _ => 512))) (List.replicate 1024 7 ++ z) := by
  have hx : (Fixture.patch (Fixture.patch (encodeMember 2 4 1 2 (List.replicate 2048 7) 0) 600 [8]) 5
      [9]).length = 2 * 512 := by decide +kernel
  obtain ⟨h1, h2, h3⟩ := replaced_damage (alg := .leftSymmetric) (L := 2) (n := 4) (c := 1) (size := 2)
    (content := List.replicate 2048 7) (bs := fun _ => 512) (by decide) (by decide) (by decide) (by decide)
    (by decide) List.length_replicate (fun _ _ => by decide) 0 hx
  obtain ⟨IsA, AtA, k1, k2, k3⟩ := C138_array InMemory.devSpec hord (L := 2) rfl h1 h2 h3
  refine ⟨_, AtA, C138_any k2 k3, fun z hz => ⟨_, k1, ?_, fun y hy => ?_⟩⟩
  · rw [List.length_append, List.length_replicate, List.length_replicate, hz]
  by_cases hb : y < 1024
  · rw [List.getElem?_append_left (by rw [List.length_replicate]; exact hb), List.getElem?_replicate,
      List.getElem?_replicate, if_pos hb, if_pos (by omega)]
  by_cases hy2 : y < 2048
  · refine absurd ?_ hy
    refine ⟨[.D 0, .D 1, .P, .Q], 0, .D 0, ?_, rfl, by decide, ?_⟩
    · rw [show y / 512 / 1 / (4 - 2) = 1 by omega]
      rfl
    · rw [show y / 512 / 1 / (4 - 2) * 1 + y / 512 % 1 = 1 by omega]
      unfold SectorDamaged
      decide +kernel
  · rw [List.getElem?_eq_none (by rw [List.length_append, List.length_replicate, hz]; omega),
      List.getElem?_eq_none (by rw [List.length_replicate]; omega)]

end MdRecover
