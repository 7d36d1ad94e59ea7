import Verif.Lemmas.NoPanic
import Verif.Props.Ext4FileCases
import Verif.Props.Ext4Session

/- C117: volumes on which nothing panics. -/

namespace MdRecover
open MdSpec Fixture

section
variable [Build] {W D : Type} {F : Prop} {dev : StreamDev W D} {G : W → Prop} {Is : D → Bytes → Prop}
  {At : W → D → Nat → Prop}

/-- C117: if nothing on the volume declares more than there is, no call of any program panics, whatever else the volume
contains, whatever calls the program makes with whatever arguments, and whichever calls to the device fail (`F`). -/
theorem C117_no_panic (hv : VolumeSpec F dev G Is At) (c : Bytes) (hc : c.length < U64) (hs : HoldsWhatItDeclares c)
    (w : W) (d : D) (hG : G w) (hd : Is d c) (ops : List (Nat × SessionCall)) (hops : ∀ x ∈ ops, x.2.wellTyped) :
    SessionOut.panicked ∉ sessionRun dev (w, [.device d]) ops :=
  sessionRun_safe hv hc hs ops hops (w, [.device d]) hG fun h hh => by
    cases List.mem_singleton.1 hh
    exact hd

/-- C117, the first condition is needed: if opening meets a number too large, a program that only opens panics. -/
theorem C117_opening_needed (hv : VolumeSpec False dev G Is At) (c : Bytes) (hp : OpenPanics c) (hb : TableChecked c)
    (w : W) (d : D) (hG : G w) (hd : Is d c) :
    sessionRun dev (w, [.device d]) [(0, .mount)] = [.panicked] := by
  obtain ⟨w1, r, h1⟩ : ∃ w1 r, dev.tryClone d w = (w1, r) := ⟨_, _, rfl⟩
  obtain ⟨hG1, h2⟩ := hv.tryClone hG hd h1
  rcases h2 with ⟨d', rfl, hd'⟩ | ⟨h2, -⟩
  rotate_left
  · exact h2.elim
  obtain ⟨w2, h3⟩ := C57_panics hv c w1 d' hG1 hd' hb hp
  have h4 : handleCall dev .mount (.device d) (w, .device d) = ((w2, .device d), .panic) :=
    onDeviceHandle_eq ((SM.bind_ok (h := onWorld_eq d h1) _).trans (SM.bind_panic (h := onWorld_eq d h3) _))
  show [(sessionStep dev 0 .mount (w, [.device d])).2] = _
  unfold sessionStep
  simp only [List.getElem?_cons_zero, h4]

/-- Mounting a volume that can be opened. -/
theorem mount_step (hv : VolumeSpec False dev G Is At) {c : Bytes} (ho : Ext4Openable c) (hp : ¬ OpenMayPanic c)
    {w : W} {d : D} (hG : G w) (hd : Is d c) :
    ∃ w' fs, G w' ∧ Opened Is c fs ∧
      sessionStep dev 0 .mount (w, [.device d]) = ((w', [.device d, .fs fs]), .done) := by
  obtain ⟨w1, r, h1⟩ : ∃ w1 r, dev.tryClone d w = (w1, r) := ⟨_, _, rfl⟩
  obtain ⟨hG1, h2⟩ := hv.tryClone hG hd h1
  rcases h2 with ⟨d', rfl, hd'⟩ | ⟨h2, -⟩
  rotate_left
  · exact h2.elim
  have hb : TableChecked c :=
    .inr (Nat.lt_of_not_le fun h3 => hp ⟨ho.long, ho.readable.ok, .inr ⟨ho.readable, .inl h3⟩⟩)
  obtain ⟨w2, r2, h3, hG2, h4⟩ := Ext4Fs.open_spec hv hG1 hd' hb
  rcases h4 with ⟨fs, rfl, h4, -⟩ | ⟨h4 | h4, -⟩ | ⟨h4, -⟩
  · have h5 : handleCall dev .mount (.device d) (w, .device d) = ((w2, .device d), .ok (.done, [.fs fs])) :=
      onDeviceHandle_eq ((SM.bind_ok (h := onWorld_eq d h1) _).trans
        (SM.bind_ok (h := onWorld_eq d h3) (f := fun fs => pure (SessionOut.done, [Handle.fs fs]))))
    refine ⟨w2, fs, hG2, h4, ?_⟩
    unfold sessionStep
    simp only [List.getElem?_cons_zero, h5]
    rfl
  · exact h4.elim
  · exact absurd ho h4.1
  · exact absurd h4 hp

/-- C117, the second condition is needed: if an inode declares more than it holds, a program that reads it panics. -/
theorem C117_inodes_needed (hv : VolumeSpec False dev G Is At) (c : Bytes) (hc : c.length < U64) (ho : Ext4Openable c)
    (hp : ¬ OpenMayPanic c) (n : Nat) (hn : InodeSlot c n) (hin : inodeSlot c n + le (sbOf c) 0x58 2 ≤ c.length)
    (hi : ¬ InodeFits c n) (w : W) (d : D) (hG : G w) (hd : Is d c) :
    sessionRun dev (w, [.device d]) [(0, .mount), (1, .inode n)] = [.done, .panicked] := by
  obtain ⟨w1, fs, hG1, ho1, h1⟩ := mount_step hv ho hp hG hd
  obtain ⟨w2, fs2, h2, -, -⟩ := C59_reads hv c w1 fs hG1 ho1 n hn.pos hn.le hn.group hin hc
  have h3 : Inode.new fs.superblock n (inodeBytes c n) = .panic := by
    rw [C60_panics_iff]
    unfold InodeFits at hi
    omega
  have h2 : Ext4Fs.readInode dev n (w1, fs) = ((w2, fs2), .panic) := h2.trans (by rw [← h3]; rfl)
  have h4 : handleCall dev (.inode n) (.fs fs) (w1, .fs fs) = ((w2, .fs fs2), .panic) :=
    onFsHandle_eq (SM.bind_panic (h := h2) _)
  show [(sessionStep dev 0 .mount (w, [.device d])).2,
    (sessionStep dev 1 (.inode n) (sessionStep dev 0 .mount (w, [.device d])).1).2] = _
  rw [h1]
  have h5 : (sessionStep dev 1 (.inode n) (w1, [.device d, .fs fs])).2 = .panicked := by
    unfold sessionStep
    simp only [List.getElem?_cons_succ, List.getElem?_cons_zero, h4]
  rw [h5]

/-- C117, on an assembled array whose members may fail at any call. -/
theorem C117_array {W D : Type} {F : Prop} {dev : BlockDev W D} {G : W → Prop} {Is : D → Disk → Prop}
    (hd : DevSpec F dev G Is) {ord : IterOrder} (hord : ord.Valid) {L n c size : Nat}
    {alg : Raid6Algorithm} {members : Nat → Disk} {content : Bytes} {devices : List (MdDevice D)}
    (hL : Raid6Algorithm.fromLayout L = some alg)
    (hr : ReadableSet Is alg n c size members devices)
    (hset : Raid6Set L n c size members content) (hc : content.length < U64) (hs : HoldsWhatItDeclares content)
    (w : W) (hG : G w) (ops : List (Nat × SessionCall)) (hops : ∀ x ∈ ops, x.2.wellTyped) :
    SessionOut.panicked ∉ sessionRun (Reader.streamDev (MdArray.dev dev))
        (w, [.device (Reader.new (MdArray.open ord devices))]) ops := by
  have ha := C16_array_device_partial hd hord hL hr hset
  exact C117_no_panic (Reader.volumeSpec ha ⟨512, size * (n - 2), content⟩) content hc hs w _ hG
    ⟨rfl, 0, Reader.at_new (ha.wf ⟨rfl, rfl⟩) ⟨rfl, rfl⟩⟩ ops hops

end

/-! ## A concrete volume -/

/-- The small filesystem with six inodes, so that the inode whose node claims too many entries is out.  The tree of
inode 4 still has a cycle, inode 5 an extent that is not written, and the file of inode 6 a hole at its beginning. -/
@[irreducible] def sixFs : Bytes := patch smallFs 1024 [6]

set_option maxRecDepth 100000 in
theorem sixFs_length : sixFs.length = 13312 := by rw [sixFs, smallFs]; decide +kernel

set_option maxRecDepth 100000 in
theorem sixFs_values : blockSizeOf (sbOf sixFs) = 1024 ∧ groupTableOf (sbOf sixFs) = 2048 ∧
    groupsOf (sbOf sixFs) = 1 ∧ le (sbOf sixFs) 0 4 = 6 ∧ le (sbOf sixFs) 0x20 4 ≠ 0 := by
  rw [sixFs, smallFs]; decide +kernel

set_option maxRecDepth 100000 in
theorem sixFs_inodes : ∀ n ∈ [1, 2, 3, 4, 5, 6], (extraOf (inodeBytes sixFs n) ≤ 32 ∧
    128 + extraOf (inodeBytes sixFs n) ≤ (inodeBytes sixFs n).length) ∧
    sizeOf sixFs n ≤ 4096 ∧ 12 + 12 * nodeEntries (rootNode sixFs n) ≤ (rootNode sixFs n).length ∧
    nodeEntries (rootNode sixFs n) ≤ 1 ∧
    (nodeDepth (rootNode sixFs n) ≠ 0 → 
      indexChild (nodeEntry (rootNode sixFs n) 0) = 6 ∨ indexChild (nodeEntry (rootNode sixFs n) 0) = 7) := by
  rw [sixFs, smallFs]; decide +kernel

set_option maxRecDepth 100000 in
theorem sixFs_nodes : nodeDepth (blockOf sixFs 1024 6) = 0 ∧
    12 + 12 * nodeEntries (blockOf sixFs 1024 6) ≤ (blockOf sixFs 1024 6).length ∧
    nodeEntries (blockOf sixFs 1024 7) = 1 ∧
    12 + 12 * nodeEntries (blockOf sixFs 1024 7) ≤ (blockOf sixFs 1024 7).length ∧
    indexChild (nodeEntry (blockOf sixFs 1024 7) 0) = 7 := by
  rw [sixFs, smallFs]; decide +kernel

/-- C117, a case: nothing on this volume declares more than there is. -/
theorem C117_case_holds : HoldsWhatItDeclares sixFs := by
  obtain ⟨v1, v2, v3, v4, v5⟩ := sixFs_values
  have hm : ∀ n, InodeSlot sixFs n → n ∈ [1, 2, 3, 4, 5, 6] := by
    intro n hn
    have h1 := hn.pos
    have h2 := hn.le
    rw [v4] at h2
    have : n = 1 ∨ n = 2 ∨ n = 3 ∨ n = 4 ∨ n = 5 ∨ n = 6 := by omega
    simpa using this
  refine ⟨?_, fun n hn => (sixFs_inodes n (hm n hn)).1, ?_, ?_⟩
  · rintro ⟨-, -, h | ⟨-, h | h⟩⟩
    · exact v5 h
    · rw [v2] at h; exact absurd h (by decide)
    · rw [v3] at h; exact absurd h (by decide)
  · intro n hn _ node ht
    obtain ⟨-, -, h1, h2, h3⟩ := sixFs_inodes n (hm n hn)
    obtain ⟨n1, n2, n3, n4, n5⟩ := sixFs_nodes
    rw [v1] at ht
    have key : node = rootNode sixFs n ∨ node = blockOf sixFs 1024 6 ∨ node = blockOf sixFs 1024 7 := by
      induction ht with
      | root => exact .inl rfl
      | child node i _ hd hi _ _ ih =>
        rcases ih with rfl | rfl | rfl
        · obtain rfl : i = 0 := by omega
          rcases h3 hd with h | h <;> rw [h]
          · exact .inr (.inl rfl)
          · exact .inr (.inr rfl)
        · exact absurd n1 hd
        · obtain rfl : i = 0 := by omega
          rw [n5]
          exact .inr (.inr rfl)
    rcases key with rfl | rfl | rfl
    · exact h1
    · exact n2
    · exact n4
  · intro n hn _
    have h1 := (sixFs_inodes n (hm n hn)).2.1
    rw [v1]
    exact h1.trans (by decide)

/-- C117, a case: whatever calls a program makes on this volume in a file, on a kernel that may fail at any call, none
panics. -/
theorem C117_case (k : Kernel) (h : Nat) (bs : Nat) (ops : List (Nat × SessionCall))
    (hops : ∀ x ∈ ops, x.2.wellTyped) :
    SessionOut.panicked ∉ sessionRun FileDev.streamDev (k, [.device ⟨h, sixFs, bs⟩]) ops :=
  C117_no_panic FileDev.volumeSpec_honest sixFs (by rw [sixFs_length]; decide) C117_case_holds _ _ trivial rfl ops hops

set_option maxRecDepth 100000 in
/-- C117, the condition on nodes is needed: the node of inode 7 of the small filesystem claims five entries, and the
first read panics (`C68_too_many`: so it is on every volume). -/
theorem C117_nodes_needed :
    sessionRun InMemory.streamDev ((), [.device (InMemory.new smallFs 512)])
      [(0, .mount), (1, .openFile 7), (2, .nextBlock 10 (zeros 1024))] = [.done, .newFile, .panicked] := by
  rw [smallFs]
  decide +kernel +revert

/-- The small filesystem with an inode 3 that declares 33 extra bytes. -/
@[irreducible] def longExtraFs : Bytes := patch smallFs (3072 + 2 * 256 + 0x80) [33]

set_option maxRecDepth 100000 in
/-- C117, a case of the condition on inodes. -/
theorem C117_case_inodes :
    sessionRun InMemory.streamDev ((), [.device (InMemory.new longExtraFs 512)])
      [(0, .mount), (1, .inode 2), (1, .inode 3)] =
    [.done, .inode (inodeOf smallFs 2), .panicked] := by
  rw [longExtraFs, smallFs]
  decide +kernel +revert

end MdRecover
