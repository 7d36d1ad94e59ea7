import Verif.Props.WholeSet

/-! C116: disks of different arrays, and outdated disks. -/

namespace MdRecover
open MdSpec

/-- C116 in part: if the superblocks on two of the disks differ in the uuid of the array or in the number of events, the
report has a complaint.  Missing: that such disks are not read together (`C116_mixed`). -/
theorem C116_reported_partial {ord ord' : IterOrder} (hord : ord.Valid) (hord' : ord'.Valid)
    (fs : Bytes → Except Nat OsFile) (paths : List Bytes) (s : System)
    (hos : NativeDev.NoFailures s.os) (hi : s.nextId + paths.length < U64)
    (hsane : ∀ path ∈ paths, ∀ f, fs path = .ok f → Sane f)
    {i j : Nat} {p q : Bytes} {f g : OsFile} {a b : Superblock} (hp : paths[i]? = some p) (hq : paths[j]? = some q)
    (hf : fs p = .ok f) (hg : fs q = .ok g) (ha : Expected (wholeBlocks f) (.superblock a))
    (hb : Expected (wholeBlocks g) (.superblock b)) (hne : a.arrayUuid ≠ b.arrayUuid ∨ a.eventCount ≠ b.eventCount) :
    ¬ ∃ s' d, mainProgram ord ord' fs paths s = (s', .ok (.diagnosis d)) ∧ Clean d := by
  rw [C87_clean_iff hord hord' fs paths s hos hi hsane]
  rintro ⟨-, found, h⟩
  have h1 := DeviceSuperblock.superblock.inj (C36_expected_unique (h.has i p f hp hf) ha)
  have h2 := DeviceSuperblock.superblock.inj (C36_expected_unique (h.has j q g hq hg) hb)
  have hs := h.same i j (List.getElem?_eq_some_iff.mp hp).1 (List.getElem?_eq_some_iff.mp hq).1
  rw [h1, h2] at hs
  exact hne.elim (fun h => h hs.arrayUuid) fun h => h hs.eventCount

namespace Fixture

/-- As `caseSb`, but device number 3 is of another array, with fewer events. -/
def mixedSb (i : Nat) : Mdp1 :=
  { caseSb i with
    set_uuid := if i = 3 then List.replicate 16 8 else List.replicate 16 7, events := if i = 3 then 1 else 100 }

theorem mixedSb_wf {i : Nat} (hi : i < 5) : (mixedSb i).Wf := by
  have h := caseSb_wf hi
  refine ⟨h.magic, h.major_version, h.feature_map, ?_, h.set_name, h.level, h.layout, h.size,
    h.chunksize, h.raid_disks, h.bitmap_offset, h.new_level, h.reshape_position, h.delta_disks,
    h.new_layout, h.new_chunk, h.new_offset, h.data_offset, h.recovery_offset, h.dev_number, h.device_uuid,
    ?_, h.max_dev, h.pad3, h.roles_length, h.roles⟩
  · show (if i = 3 then List.replicate 16 8 else List.replicate 16 7 : Bytes).length = 16
    split <;> rfl
  · show (if i = 3 then 1 else 100) < U64
    split <;> decide

def mixedFile (i : Nat) : OsFile := ⟨disk10 (caseData i) 1536 (mixedSb i), some 512⟩

theorem mixedFile_member {i : Nat} (hi : i < 5) : Member10 (mixedFile i) (mixedSb i) := by
  have hl := caseData_length i
  obtain ⟨h0, h1⟩ := caseData_magic i (List.mem_range.mpr hi)
  exact disk10_member (mixedSb_wf hi) rfl rfl (by rw [hl]; exact ⟨2, rfl⟩) (by omega)
    (by rw [hl]; decide) (by decide) (by decide) (by rw [hl]; exact ⟨32, rfl⟩) (by omega) h0 h1

/-- Device number `i` is at the path `[i]`. -/
def mixedFs : Bytes → Except Nat OsFile
  | [i] => if i.toNat < 5 then .ok (mixedFile i.toNat) else .error 2
  | _ => .error 2

theorem mixed_arrayAt : ArrayAt mixedFs casePaths 2 4 1 13 smallFs (fun j => mixedFile (caseOrder.getD j 0))
    (fun j => mixedSb (caseOrder.getD j 0)) casePlace := by
  have htable : ∀ i, roleTable (mixedSb i) = [0, 1, 2, 3, 0xffff] := caseSb_table
  refine ⟨⟨?_, fun j hj => mixedFile_member (caseOrder_lt j hj), ?_, ?_, ?_, ?_, by decide⟩, ?_⟩
  · intro j path h
    have hj : j < 5 := (List.getElem?_eq_some_iff.mp h).1
    have : j = 0 ∨ j = 1 ∨ j = 2 ∨ j = 3 ∨ j = 4 := by omega
    rcases this with rfl | rfl | rfl | rfl | rfl <;> cases h <;> rfl
  · intro j _
    exact ⟨rfl, rfl, rfl, rfl, rfl, caseSb_features 0, rfl⟩
  · intro i j _ _
    rw [htable, htable]
  · intro d hd
    rw [htable]
    have : d = 0 ∨ d = 1 ∨ d = 2 ∨ d = 3 := by omega
    rcases this with rfl | rfl | rfl | rfl <;> exact ⟨by decide, rfl⟩
  · intro j d hj hd h
    rw [htable] at h
    have hj : j < 5 := hj
    have : j = 0 ∨ j = 1 ∨ j = 2 ∨ j = 3 ∨ j = 4 := by omega
    rcases this with rfl | rfl | rfl | rfl | rfl <;> cases h <;> first | rfl | omega
  · refine encode_set (n := 4) (c := 1) (size := 13) (by decide) (by decide) (by decide) ⟨13, rfl⟩ (by decide) smallFs_length _ ?_
    intro d hd
    have hp : caseOrder.getD (casePlace d) 0 = d := by
      have : d = 0 ∨ d = 1 ∨ d = 2 ∨ d = 3 := by omega
      rcases this with rfl | rfl | rfl | rfl <;> rfl
    show _ <+: wholeBlocks (mixedFile (caseOrder.getD (casePlace d) 0))
    rw [hp, wholeBlocks_member (mixedFile_member (by omega : d < 5))]
    refine ⟨zeros 1536 ++ ((mixedSb d).encode ++ zeros 4096), ?_⟩
    show _ = disk10 (caseData d) 1536 (mixedSb d)
    rw [disk10, caseData, if_pos hd, List.append_assoc]

end Fixture

open Fixture

/-- C116 is false as stated: three disks of one array and one of another, with fewer events, are read together, and the
files on them are seen as on the disks of one array (`C89_case`); although the report has a complaint. -/
theorem C116_mixed {ord ord' : IterOrder} (hord : ord.Valid) (hord' : ord'.Valid) :
    (mixedSb 3).set_uuid ≠ (mixedSb 0).set_uuid ∧ (mixedSb 3).events ≠ (mixedSb 0).events ∧
    (∃ s' devices, openPaths mixedFs casePaths quiet = (s', .ok (devices.map .ok)) ∧
      sessionRun (Reader.streamDev (MdArray.dev NativeDev.streamDev.toBlockDev))
          (s'.os, [.device (Reader.new (MdArray.open ord devices))]) program =
        [.done, .number 1024, .newFile, .number 2500, .newDirectory,
          .data 1024 ((smallFs.drop 8192).take 1024),
          .entry (some ⟨[2, 0, 0, 0, 12, 0, 1, 2, 46, 0, 0, 0]⟩),
          .data 1024 ((smallFs.drop 9216).take 1024), .data 452 ((smallFs.drop 10240).take 1024),
          .data 0 (zeros 1024), .noSuchHandle, .error .invalidInput]) ∧
    ¬ ∃ s' d, mainProgram ord ord' mixedFs casePaths quiet = (s', .ok (.diagnosis d)) ∧ Clean d := by
  refine ⟨by decide, by decide, ?_, ?_⟩
  · obtain ⟨s', devices, h1, h2⟩ := C89_disks_to_files_partial mixed_arrayAt rfl quiet quiet_noFailures
      (by decide)
    refine ⟨s', devices, h1, ?_⟩
    rw [h2 ord hord program program_wellTyped]
    exact program_outcomes
  · have hm : ∀ i, i < 5 → Member10 (mixedFile i) (mixedSb i) := fun i hi => mixedFile_member hi
    have hx : ∀ i, i < 5 → Expected (wholeBlocks (mixedFile i)) (.superblock (found10 (mixedSb i))) := by
      intro i hi
      have := (hm i hi).expected
      rwa [← wholeBlocks_member (hm i hi)] at this
    refine C116_reported_partial hord hord' mixedFs casePaths quiet quiet_noFailures (by decide) mixed_arrayAt.sane (i := 2) (j := 3)
      (p := [0]) (q := [3]) rfl rfl (f := mixedFile 0) (g := mixedFile 3) rfl rfl (hx 0 (by decide)) (hx 3 (by decide))
      (.inr ?_)
    obtain ⟨-, -, -, -, -, -, -, -, h1, -⟩ := found10_fields (mixedSb_wf (i := 0) (by decide))
    obtain ⟨-, -, -, -, -, -, -, -, h2, -⟩ := found10_fields (mixedSb_wf (i := 3) (by decide))
    rw [h1, h2]
    decide

end MdRecover
