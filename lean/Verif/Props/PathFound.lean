import Verif.Lemmas.PathFound
import Verif.Props.Ext4Path

namespace MdRecover
open MdSpec Fixture
variable [Build]

/-- C112: whatever the volume contains, however damaged it is, and whatever fails: if a program that follows a
path arrives at an answer, the blocks and the records it went by are on the volume.  If it returns a content, each
name of the path is that of the first such record in the directory reached, in a sound block of that directory; and
the content is that of blocks which extents map to block 0, 1, … of the file reached, a regular file, up to its
size.  If it says that there is no such entry, the records of all blocks of a directory on the way have been looked
at, and none has the name. -/
theorem C112_backed {W D : Type} {F : Prop} {dev : StreamDev W D} {G : W → Prop} {Is : D → Bytes → Prop}
    {At : W → D → Nat → Prop} (hv : VolumeSpec F dev G Is At) (c : Bytes) (hl : c.length < U64)
    (ht : TableChecked c) (hcount : AllCounted c) (w : W) (hG : G w) (d : D) (hd : Is d c)
    (names : List Bytes) (rounds : Nat) (out : Found) (hne : out ≠ .running)
    (h : (readPath dev rounds d names w).2 = .ok out) :
    Ext4Readable (sbOf c) ∧ Backed c names out := by
  obtain ⟨w', r, h1, hG', h2⟩ := Ext4Fs.open_spec hv hG hd ht
  rcases h2 with ⟨fs, rfl, ho, -⟩ | ⟨-, e, rfl⟩ | ⟨-, rfl⟩
  · rw [readPath_eq h1] at h
    rcases h3 : follow dev rounds names 2 (w', fs) with ⟨s', r⟩
    rw [h3] at h
    simp only at h
    subst h
    exact ⟨ho.readable, follow_backed hv hl hcount names hG' ho h3 hne [] (.here 2)⟩
  · rw [readPath, SM.bind_err (h := h1)] at h
    cases h
  · rw [readPath, SM.bind_panic (h := h1)] at h
    cases h

/-- C112, on a RAID6 array with members that may fail: the same about the content of the array. -/
theorem C112_array {W D : Type} {F : Prop} {dev : BlockDev W D} {G : W → Prop} {Is : D → Disk → Prop}
    (hd : DevSpec F dev G Is) {ord : IterOrder} (hord : ord.Valid) {L n c size : Nat} {alg : Raid6Algorithm}
    {members : Nat → Disk} {devices : List (MdDevice D)} {content : Bytes}
    (hL : Raid6Algorithm.fromLayout L = some alg) (hr : ReadableSet Is alg n c size members devices)
    (hset : Raid6Set L n c size members content) (hl : content.length < U64) (ht : TableChecked content)
    (hcount : AllCounted content) (w : W) (hG : G w) (names : List Bytes) (rounds : Nat) (out : Found)
    (hne : out ≠ .running)
    (h : (readPath (Reader.streamDev (MdArray.dev dev)) rounds (Reader.new (MdArray.open ord devices)) names w).2
      = .ok out) : Ext4Readable (sbOf content) ∧ Backed content names out := by
  have ha := C16_array_device_partial hd hord hL hr hset
  exact C112_backed (Reader.seekableVolume ha ⟨512, size * (n - 2), content⟩).toVolumeSpec content hl ht hcount w
    hG _ ⟨rfl, 0, Reader.at_new (ha.wf ⟨rfl, rfl⟩) ⟨rfl, rfl⟩⟩ names rounds out hne h

omit [Build] in
/-- C112: if the name in a record has no zero byte, and a zero byte or the end of the record follows it, it is the
name that the record shows. -/
theorem C112_clean (e : Bytes) (hr : IsRecord e) (hc : CleanName e) : shownName e = recordName e := by
  rw [← entry_name]
  exact (C70_name_partial ⟨e⟩ hr).2 hc

omit [Build] in
/-- C112: the answer is not left open: a content that is found has the size of the file. -/
theorem C112_length {c : Bytes} {names : List Bytes} {b : Bytes} (h : Backed c names (.content b)) :
    ∃ m, Reaches c 2 names m ∧ b.length = sizeOf c m := by
  generalize hb : Found.content b = out at h
  cases h with
  | content m xs h1 h2 h3 h4 h5 h6 h7 =>
    cases hb
    refine ⟨m, h1, ?_⟩
    have : (xs.flatMap (blockOf c (blockSizeOf (sbOf c)))).length = xs.length * blockSizeOf (sbOf c) := by
      rw [List.length_flatMap]
      have : xs.map (fun x => (blockOf c (blockSizeOf (sbOf c)) x).length)
          = List.replicate xs.length (blockSizeOf (sbOf c)) := by
        rw [List.eq_replicate_iff]
        refine ⟨List.length_map _, fun b hb => ?_⟩
        obtain ⟨y, hy, rfl⟩ := List.mem_map.1 hb
        obtain ⟨k, hk⟩ := List.mem_iff_getElem?.1 hy
        have := (h5 k y hk).2
        unfold BlockInside at this
        unfold blockOf
        rw [List.length_take, List.length_drop]
        omega
      rw [this, List.sum_replicate, smul_eq_mul]
    rw [List.length_take, this]
    omega
  | missing => cases hb
  | notADirectory => cases hb
  | notAFile => cases hb

/-! ## Cases -/

omit [Build] in
set_option maxRecDepth 100000 in
theorem case_counts : le (sbOf smallFs) 0 4 = 8 ∧ le (sbOf staleFs) 0 4 = 8 ∧
    groupTableOf (sbOf smallFs) < U64 ∧ groupTableOf (sbOf staleFs) < U64 ∧
    (∀ n, n < 9 → MdSpec.sizeOf smallFs n < 2 ^ 32 ∧ MdSpec.sizeOf staleFs n < 2 ^ 32) ∧
    staleFs.length = 13312 := by
  refine ⟨?_, ?_, ?_, ?_, ?_, ?_⟩ <;> decide +kernel

omit [Build] in
set_option maxRecDepth 100000 in
theorem stale_shown :
    ∃ e ∈ rootRecords staleFs, recordName e = [108, 111, 111, 112] ∧ shownName e ≠ recordName e := by
  decide +kernel

theorem case_counted : AllCounted smallFs ∧ AllCounted staleFs := by
  obtain ⟨a1, a2, -, -, a5, -⟩ := case_counts
  have hge := Ext4Directory.blockSize_ge
  constructor
  · intro n hn
    have h1 := (a5 n (by have := hn.le; omega)).1
    have h2 := Nat.mul_le_mul_left (U32 - 1) (hge smallFs)
    exact .inr (by omega)
  · intro n hn
    have h1 := (a5 n (by have := hn.le; omega)).2
    have h2 := Nat.mul_le_mul_left (U32 - 1) (hge staleFs)
    exact .inr (by omega)

/-- C112, a case: a device that may fail at any time, and holds the hand-made filesystem; whatever the program
answers about "data" is on it. -/
theorem C112_case (K : Kernel) (rounds : Nat) (out : Found) (hne : out ≠ .running)
    (h : (readPath FileDev.streamDev rounds ⟨5, smallFs, 512⟩ [[100, 97, 116, 97]] K).2 = .ok out) :
    Backed smallFs [[100, 97, 116, 97]] out := by
  obtain ⟨-, -, a3, -, -, -⟩ := case_counts
  exact (C112_backed FileDev.volumeSpec_honest smallFs (by have := smallFs_length; omega) (.inr a3) case_counted.1 K trivial
    ⟨5, smallFs, 512⟩ rfl _ rounds out hne h).2

/-- C112, a case: the filesystem of `C98_stale_byte`, in which the program does not find "loop": no record shows that
name, although one has it. -/
theorem C112_stale : Backed staleFs [[108, 111, 111, 112]] .missing ∧
    ∃ e ∈ rootRecords staleFs, recordName e = [108, 111, 111, 112] ∧ shownName e ≠ recordName e := by
  obtain ⟨-, -, -, a4, -, a6⟩ := case_counts
  refine ⟨(C112_backed InMemory.volumeSpec staleFs (by omega) (.inr a4) case_counted.2 () trivial
    (InMemory.new staleFs 512) rfl _ 10 .missing (fun h => (by cases h)) C98_stale_byte.2.2).2, ?_⟩
  exact stale_shown

end MdRecover
