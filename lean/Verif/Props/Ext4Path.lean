import Verif.Lemmas.Ext4Path
import Verif.Lemmas.Ext4PathSim
import Verif.Lemmas.Ext4Unique
import Verif.Props.Ext4Session
import Verif.Props.Ext4Listing
import Verif.Props.EndToEnd

/-! C98: following a path of names to the content of a file. -/

namespace MdRecover
open MdSpec Fixture

section
variable [Build]

omit [Build] in
theorem says_not_running {c : Bytes} {names : List Bytes} {out : Found} (h : Says c names out) :
    out ≠ .running := by
  cases h <;> exact fun h => by cases h

/-- C98 (partial: only if the bytes after the names of the records met on the way are zero; otherwise it is
false by `C98_stale_byte`).  On a device that does not fail and holds an ext4 filesystem, the program that
opens the filesystem, looks up one name after the other from the root and reads the blocks of the file it
arrives at returns what the bytes of the volume say: the content of that file, up to its size; or that there is
no such entry; or that something else is in the place of a directory or of the file.  A smaller bound on its
loops makes it stop early, and never changes the answer. -/
theorem C98_reads_partial {W D : Type} {dev : StreamDev W D} {G : W → Prop} {Is : D → Bytes → Prop}
    {At : W → D → Nat → Prop} (hv : VolumeSpec False dev G Is At) (c : Bytes) (hc : Ext4Openable c)
    (hl : c.length < 2 ^ 57) (w : W) (hG : G w) (d : D) (hd : Is d c) (names : List Bytes) (out : Found)
    (hs : Says c names out) :
    ∃ N, (∀ rounds, N ≤ rounds → (readPath dev rounds d names w).2 = .ok out) ∧
      ∀ rounds, (readPath dev rounds d names w).2 = .ok out ∨
        (readPath dev rounds d names w).2 = .ok .running := by
  obtain ⟨w', fs, h1, hG', ho⟩ := open_opened hv hG hd hc hl
  obtain ⟨s', N, h2⟩ := follow_says hv (by omega) hs hG' ho
  have h3 : ∀ rounds, N ≤ rounds → (readPath dev rounds d names w).2 = .ok out := by
    intro rounds hr
    rw [readPath_eq h1, h2 rounds hr]
  refine ⟨N, h3, fun rounds => ?_⟩
  by_cases hr : (readPath dev rounds d names w).2 = .ok .running
  · exact .inr hr
  · refine .inl ?_
    rw [readPath_agree hr (r2 := N), h3 N (Nat.le_refl _)]
    rw [h3 N (Nat.le_refl _)]
    intro h
    exact says_not_running hs (Res.ok.inj h)

/-- C98, the specification: the bytes of a volume say one thing at most about a path. -/
theorem C98_unambiguous (c : Bytes) (hc : Ext4Openable c) (hl : c.length < 2 ^ 57) (names : List Bytes)
    (out out' : Found) (hs : Says c names out) (hs' : Says c names out') : out = out' := by
  obtain ⟨N, h, -⟩ := C98_reads_partial InMemory.volumeSpec c hc hl () trivial (InMemory.new c 512) rfl names out hs
  obtain ⟨N', h', -⟩ := C98_reads_partial InMemory.volumeSpec c hc hl () trivial (InMemory.new c 512) rfl names
    out' hs'
  have h1 := h (max N N') (Nat.le_max_left _ _)
  rw [h' (max N N') (Nat.le_max_right _ _)] at h1
  exact (Res.ok.inj h1).symm

/-- C98, on devices that may fail at any time and that may refuse positions beyond their end: the answer is the
right one, or an error, or the bound was too small.  The same bound is enough for all devices. -/
theorem C98_failing_partial (c : Bytes) (hc : Ext4Openable c) (hl : c.length < 2 ^ 57) (names : List Bytes)
    (out : Found) (hs : Says c names out) :
    ∃ N, ∀ {W D : Type} {F : Prop} {lim : Nat → Nat} {dev : StreamDev W D} {G : W → Prop}
      {Is : D → Bytes → Prop} {At : W → D → Nat → Prop}, SeekableVolume F lim dev G Is At →
      (lim c.length = U64 ∨ (F ∧ lim c.length ≤ U64)) →
      ∀ (w : W) (d : D), G w → Is d c → ∀ rounds,
        (readPath dev rounds d names w).2 = .ok out ∨
        (F ∧ ∃ e, (readPath dev rounds d names w).2 = .err e) ∨
        (rounds < N ∧ (readPath dev rounds d names w).2 = .ok .running) := by
  obtain ⟨N, h1, h2⟩ := C98_reads_partial InMemory.volumeSpec c hc hl () trivial (InMemory.new c 512) rfl
    names out hs
  refine ⟨N, fun {W D F lim dev G Is At} hv hlim w d hG hd rounds => ?_⟩
  have h3 : (readPath InMemory.streamDev rounds (InMemory.new c 512) names ()).2 = .ok out ∨
      (rounds < N ∧
        (readPath InMemory.streamDev rounds (InMemory.new c 512) names ()).2 = .ok .running) := by
    rcases h2 rounds with h | h
    · exact .inl h
    · rcases Nat.lt_or_ge rounds N with hr | hr
      · exact .inr ⟨hr, h⟩
      · exact .inl (h1 rounds hr)
  rcases Ext4Sim.readPath hv InMemory.seekableVolume hlim (d2 := InMemory.new c 512) ⟨hd, rfl⟩ rounds names w ()
    ⟨hG, trivial⟩ with ⟨t1, t2, a1, a2, e1, e2, rfl, -⟩ | ⟨t1, t2, e, e1, e2, -⟩ | ⟨t1, t2, e1, e2, -⟩ |
    ⟨hF, t1, e, e1, -⟩
  · rw [e1]
    rw [e2] at h3
    exact h3.imp id .inr
  · rw [e2] at h3
    rcases h3 with h3 | ⟨-, h3⟩ <;> cases h3
  · rw [e2] at h3
    rcases h3 with h3 | ⟨-, h3⟩ <;> cases h3
  · rw [e1]
    exact .inr (.inl ⟨hF, e, rfl⟩)

/-- C98, on a RAID6 array whose content is an ext4 filesystem, with members that do not fail: the program
returns what the content of the array says. -/
theorem C98_array_partial {L n c size : Nat} {content : Bytes} (hc : Ext4Openable content)
    (hl : content.length < 2 ^ 57) (names : List Bytes) (out : Found) (hs : Says content names out) :
    ∃ N, ∀ {W D : Type} {F : Prop} {dev : BlockDev W D} {G : W → Prop} {Is : D → Disk → Prop},
      DevSpec F dev G Is → ∀ {ord : IterOrder}, ord.Valid → ∀ {alg : Raid6Algorithm}
      {members : Nat → Disk} {devices : List (MdDevice D)}, Raid6Algorithm.fromLayout L = some alg →
      ReadableSet Is alg n c size members devices → Raid6Set L n c size members content →
      ∀ w, G w → ∀ rounds,
        let r := (readPath (Reader.streamDev (MdArray.dev dev)) rounds
          (Reader.new (MdArray.open ord devices)) names w).2
        r = .ok out ∨ (F ∧ ∃ e, r = .err e) ∨ (rounds < N ∧ r = .ok .running) := by
  obtain ⟨N, h⟩ := C98_failing_partial content hc hl names out hs
  refine ⟨N, fun {W D F dev G Is} hd {ord} hord {alg members devices} hL hr hset w hG rounds => ?_⟩
  have ha := C16_array_device_partial hd hord hL hr hset
  exact h (Reader.seekableVolume ha ⟨512, size * (n - 2), content⟩) (.inl rfl) w _ hG
    ⟨rfl, 0, Reader.at_new (ha.wf ⟨rfl, rfl⟩) ⟨rfl, rfl⟩⟩ rounds

/-- C98, from the paths of the member disks to the content of a file in the filesystem on their array (C89 and
C98 together, nothing fails): all are opened, and on the array made of them the program returns what the content
of the array says. -/
theorem C98_disks_to_content_partial {content : Bytes} (hc : Ext4Openable content)
    (hl : content.length < 2 ^ 57) (names : List Bytes) (out : Found) (hs : Says content names out) :
    ∃ N, ∀ {fs : Bytes → Except Nat OsFile} {paths : List Bytes} {L n c size : Nat}
      {file : Nat → OsFile} {sb : Nat → Mdp1} {place : Nat → Nat},
      ArrayAt fs paths L n c size content file sb place →
      ∀ {alg : Raid6Algorithm}, Raid6Algorithm.fromLayout L = some alg →
      ∀ s : System, NativeDev.NoFailures s.os → s.nextId + paths.length < U64 →
      ∃ s' devices, openPaths fs paths s = (s', .ok (devices.map .ok)) ∧
        ∀ ord : IterOrder, ord.Valid → ∀ rounds, N ≤ rounds →
          (readPath (Reader.streamDev (MdArray.dev NativeDev.streamDev.toBlockDev)) rounds
            (Reader.new (MdArray.open ord devices)) names s'.os).2 = .ok out := by
  obtain ⟨N, hN⟩ := C98_failing_partial content hc hl names out hs
  refine ⟨N, fun {fs paths L n c size file sb place} h {alg} hL s hos hi => ?_⟩
  obtain ⟨s', rs, hrun, hG, ho⟩ := openPaths_spec False NativeDev.NoFailures
    (fun _ _ h hl => ⟨fun c hc => h.1 c (hl.1 hc), fun c hc => h.2 c (hl.2 hc)⟩)
    (fun _ c h hc => h.1 c hc) (fun _ c h hc => h.2 c hc) fs paths s hos hi h.sane
  have hne : (partitionResult rs).2 = [] := by
    rw [ho.errors_eq, List.filterMap_eq_nil_iff]
    intro path hp
    rw [complaint, h.usable path hp]
    rfl
  obtain ⟨h1, h2⟩ := h.opened ho hne
  refine ⟨s', (partitionResult rs).1, by rw [← partitionResult_ok rs hne]; exact hrun,
    fun ord hord rounds hr => ?_⟩
  have ha := C16_array_device_partial NativeDev.streamDevSpec_reliable.toDev hord hL
    (h.readable hL h1 fun j hj => ⟨(h2 j hj).2.resolve_right fun h => h.1, (h2 j hj).1⟩) h.data
  rcases hN (Reader.seekableVolume ha ⟨512, size * (n - 2), content⟩) (.inl rfl) s'.os _ hG
    ⟨rfl, 0, Reader.at_new (ha.wf ⟨rfl, rfl⟩) ⟨rfl, rfl⟩⟩ rounds with h | ⟨h, -⟩ | ⟨h, -⟩
  · exact h
  · exact h.elim
  · omega

end

namespace Fixture

/-- The hand-made filesystem with a byte left behind the name "loop" in its record. -/
@[irreducible] def staleFs : Bytes := patch smallFs (5 * 1024 + 52) [120]

theorem staleFs_like : Like staleFs := by
  rw [staleFs]; exact patch_like _ _ (by decide) (by decide)

set_option maxRecDepth 100000 in
theorem stale_values : sbOf staleFs = sbOf smallFs ∧ inodeBytes staleFs 2 = inodeBytes smallFs 2 ∧
    inodeSlot staleFs 2 = inodeSlot smallFs 2 := by
  rw [staleFs]; decide +kernel

theorem openable_of {c : Bytes} (hl : Like c) (h : sbOf c = sbOf smallFs) [Build] : Ext4Openable c := by
  have := fixture_openable.2
  have h1 := hl.length
  have h2 := smallFs_length
  exact ⟨by omega, by rw [h]; exact this.readable, by rw [h, h1, ← h2]; exact this.fits⟩

/-- The records of the root directory. -/
def rootRecords (c : Bytes) : List Bytes := listOf 128 (blockOf c 1024 5)

theorem root_directory {c : Bytes} (hl : Like c) (h1 : sbOf c = sbOf smallFs)
    (h2 : inodeBytes c 2 = inodeBytes smallFs 2) (h3 : inodeSlot c 2 = inodeSlot smallFs 2) [Build] :
    DirectoryAt c 2 (rootRecords c) := by
  obtain ⟨-, -, -, -, ⟨r1, r2, r3, r4, r5, r6⟩, t2, b2, e2, -⟩ := C75_case
  have hlen := hl.length
  have hlen' := smallFs_length
  have hroot : rootNode smallFs 2 = root smallFs 2 := by decide +kernel
  have hsize : sizeOf smallFs 2 = 1024 := by decide +kernel
  have hno : ¬ HasChecksums smallFs := by unfold HasChecksums; decide +kernel
  have hb : (blockOf c 1024 5).length = 1024 := by
    unfold blockOf; rw [List.length_take, List.length_drop, hlen]; decide
  refine ⟨⟨r1, by rw [h1]; exact r2, by rw [h1]; exact r3, by rw [h1, h3, hlen, ← hlen']; exact r4,
    by rw [h2]; exact r5, by rw [h2]; exact r6⟩, by rw [typeNumber, h2]; exact t2,
    by rw [flagBit, h2]; exact b2, by rw [hasExtents, flagBit, flagBit, h2]; exact e2, ?_⟩
  rw [hl.blockSize]
  refine ⟨[5], [rootRecords c], none, ?_, ?_, by decide, ?_, ?_, ?_, by rw [List.flatten_singleton]⟩
  · rw [rootNode, h2]
    show Contiguous c 1024 (rootNode smallFs 2) 0 0 [5]
    rw [hroot]
    exact root_contiguous c
  · intro x hx
    rw [List.mem_singleton] at hx
    subst hx
    unfold BlockInside
    omega
  · rw [MdSpec.sizeOf, h2]; exact hsize
  · refine ⟨fun h => absurd ?_ hno, fun _ => rfl⟩
    rw [HasChecksums, h1] at h
    exact h
  · refine .cons ⟨fun s hs => (by cases hs), ?_⟩ .nil
    show Tiles ((blockOf c 1024 5).take (blockOf c 1024 5).length) _
    rw [List.take_length]
    exact tiles_listOf 128 _ (by omega)

set_option maxRecDepth 100000 in
/-- The records of the root directory, one by one. -/
theorem root_names :
    (rootRecords smallFs).map (fun e => (recordInode e, recordName e)) =
      [(2, [46]), (2, [46, 46]), (3, [100, 97, 116, 97]), (4, [108, 111, 111, 112])] ∧
    (∀ e ∈ rootRecords smallFs,
      0 ∉ recordName e ∧ (8 + le e 6 1 = e.length ∨ e[8 + le e 6 1]? = some 0)) ∧
    (rootRecords staleFs).map (fun e => (recordInode e, recordName e)) =
      [(2, [46]), (2, [46, 46]), (3, [100, 97, 116, 97]), (4, [108, 111, 111, 112])] := by
  refine ⟨by decide +kernel, by decide +kernel, ?_⟩
  rw [staleFs]
  decide +kernel

theorem split_four {α β : Type} {f : α → β} {l : List α} {a b c d : β} (h : l.map f = [a, b, c, d]) :
    ∃ w x y z, l = [w, x, y, z] ∧ f w = a ∧ f x = b ∧ f y = c ∧ f z = d := by
  match l, h with
  | [w, x, y, z], h =>
    simp only [List.map_cons, List.map_nil, List.cons.injEq, and_true] at h
    exact ⟨w, x, y, z, rfl, h⟩

theorem file3 [Build] : FileAt smallFs 3 ((smallFs.drop 8192).take 2500) := by
  obtain ⟨r3, t3, e3, z3, -⟩ := C75_case
  have hroot : rootNode smallFs 3 = root smallFs 3 := by decide +kernel
  refine ⟨r3, t3, e3, [8, 9, 10], ?_⟩
  rw [smallFs_like.blockSize, hroot, z3]
  refine ⟨contiguous3.1, ?_, by decide, by decide, fun _ => by decide, by decide +kernel⟩
  intro x hx
  unfold BlockInside
  rw [smallFs_length]
  simp only [List.mem_cons, List.not_mem_nil, or_false] at hx
  omega

end Fixture

open Fixture

section
variable [Build]

/-- From the root, "." and ".." lead to the root, and "data" to inode 3. -/
theorem small_leads : Leads smallFs CleanName 2 [[46, 46], [46], [100, 97, 116, 97]] 3 := by
  obtain ⟨hr, hcl, -⟩ := root_names
  have hd := root_directory smallFs_like rfl rfl rfl
  obtain ⟨w, x, y, z, hl, hw, hx, hy, hz⟩ := split_four hr
  rw [hl] at hd hcl
  simp only [Prod.mk.injEq] at hw hx hy hz
  have hc : ∀ {l : List Bytes}, (∀ e ∈ l, e ∈ [w, x, y, z]) → ∀ e ∈ l, recordInode e ≠ 0 → CleanName e :=
    fun h e he _ => hcl e (h e he)
  refine .into 2 3 _ _ [w] [y, z] x hd ⟨by omega, hx.2⟩ ?_ (hc (by simp)) ?_
  · intro e he
    rw [List.mem_singleton] at he
    subst he
    rintro ⟨-, h⟩
    rw [hw.2] at h
    cases h
  rw [hx.1]
  refine .into 2 3 _ _ [] [x, y, z] w hd ⟨by omega, hw.2⟩ (by simp) (hc (by simp)) ?_
  rw [hw.1]
  refine .into 2 3 _ _ [w, x] [z] y hd ⟨by omega, hy.2⟩ ?_ (hc (by simp)) ?_
  · intro e he
    rintro ⟨-, h⟩
    simp only [List.mem_cons, List.not_mem_nil, or_false] at he
    rcases he with rfl | rfl
    · rw [hw.2] at h; cases h
    · rw [hx.2] at h; cases h
  rw [hy.1]
  exact .here 3

/-- C98, a case: the bytes of the hand-made filesystem say that "../././data" is the file at block 8, of 2500
bytes; that the root has no "date"; that "data" is not a directory; that "." is not a file. -/
theorem C98_case_says :
    Says smallFs [[46, 46], [46], [100, 97, 116, 97]] (.content ((smallFs.drop 8192).take 2500)) ∧
    Says smallFs [[100, 97, 116, 101], [46]] .missing ∧
    Says smallFs [[46, 46], [46], [100, 97, 116, 97], [46]] .otherType ∧
    Says smallFs [] .otherType := by
  obtain ⟨r3, t3, e3, -, r2, t2, b2, e2, -⟩ := C75_case
  obtain ⟨hr, hcl, -⟩ := root_names
  refine ⟨.content 3 _ small_leads file3, ?_, ?_, ?_⟩
  · refine .missing [] _ _ 2 (rootRecords smallFs) rfl (.here 2) (root_directory smallFs_like rfl rfl rfl)
      (fun e he _ => hcl e he) ?_
    obtain ⟨w, x, y, z, hl, hw, hx, hy, hz⟩ := split_four hr
    rw [hl]
    simp only [Prod.mk.injEq] at hw hx hy hz
    intro e he
    rintro ⟨-, h⟩
    simp only [List.mem_cons, List.not_mem_nil, or_false] at he
    rcases he with rfl | rfl | rfl | rfl
    · rw [hw.2] at h; cases h
    · rw [hx.2] at h; cases h
    · rw [hy.2] at h; exact absurd h (by decide)
    · rw [hz.2] at h; exact absurd h (by decide)
  · exact .notADirectory [[46, 46], [46], [100, 97, 116, 97]] [] [46] 3 rfl small_leads r3
      (by rw [t3]; decide) (fun _ => e3)
  · exact .notAFile 2 (.here 2) r2 (by rw [t2]; decide) (fun _ => ⟨e2, b2⟩)

/-- C98, the case on a file that is read in short pieces: the program arrives at these bytes. -/
theorem C98_case : ∃ N, ∀ rounds, N ≤ rounds →
    (readPath FileDev.streamDev rounds ⟨5, smallFs, 512⟩ [[46, 46], [46], [100, 97, 116, 97]]
      ⟨fun _ => 77, [.upTo 100, .upTo 3, .upTo 1], fun _ => 2 ^ 40⟩).2 =
        .ok (.content ((smallFs.drop 8192).take 2500)) := by
  obtain ⟨N, h, -⟩ := C98_reads_partial (FileDev.seekableVolume_reliable (2 ^ 40)).toVolumeSpec smallFs
    fixture_openable.2 (by rw [smallFs_length]; decide)
    ⟨fun _ => 77, [.upTo 100, .upTo 3, .upTo 1], fun _ => 2 ^ 40⟩
    ⟨by intro c h; simp at h, fun _ => rfl⟩ ⟨5, smallFs, 512⟩ rfl _ _ C98_case_says.1
  exact ⟨N, h⟩

set_option maxRecDepth 100000 in
/-- C98 is false as stated: with a byte other than zero behind the name "loop" in its record, the name is still
that of inode 4, but the program does not find it. -/
theorem C98_stale_byte : Ext4Openable staleFs ∧
    Leads staleFs (fun _ => True) 2 [[108, 111, 111, 112]] 4 ∧
    (readPath InMemory.streamDev 10 (InMemory.new staleFs 512) [[108, 111, 111, 112]] ()).2 =
      .ok .missing := by
  obtain ⟨v1, v2, v3⟩ := stale_values
  refine ⟨openable_of staleFs_like v1, ?_, ?_⟩
  · obtain ⟨-, -, hr⟩ := root_names
    have hd := root_directory staleFs_like v1 v2 v3
    obtain ⟨w, x, y, z, hl, hw, hx, hy, hz⟩ := split_four hr
    rw [hl] at hd
    simp only [Prod.mk.injEq] at hw hx hy hz
    refine .into 2 4 _ _ [w, x, y] [] z hd ⟨by omega, hz.2⟩ ?_ (fun _ _ _ => trivial) ?_
    · intro e he
      rintro ⟨-, h⟩
      simp only [List.mem_cons, List.not_mem_nil, or_false] at he
      rcases he with rfl | rfl | rfl
      · rw [hw.2] at h; cases h
      · rw [hx.2] at h; cases h
      · rw [hy.2] at h; exact absurd h (by decide)
    · rw [hz.1]
      exact .here 4
  · rw [staleFs]
    decide +kernel +revert

end
end MdRecover
