import Verif.Props.Report
import Verif.Props.EndToEndCases

/-! Concrete cases of C90 to C92. -/

namespace MdRecover
open MdSpec Fixture

/-- C90: one device without superblock, under a path with a byte that is not part of a character and a
quotation mark. -/
def oneMissing : Diagnosis :=
  { noComplaint with missingSuperblock := some [⟨7, some [0x2f, 0xff, 0x22]⟩] }

set_option maxRecDepth 100000 in
example : Debug.diagnosis (fun _ l => l) (fun _ => true) oneMissing ++ [10] = linesText [
  "Diagnosis {",
  "    device_too_small_problem: None,",
  "    missing_superblock_problem: Some(",
  "        {",
  "            MdDeviceId {",
  "                internal_index: 7,",
  "                user_reference: Some(",
  "                    \"/\\xFF\\\"\",",
  "                ),",
  "            },",
  "        },",
  "    ),",
  "    array_uuid_problem: None,",
  "    array_name_problem: None,",
  "    algorithm_problem: None,",
  "    size_problem: None,",
  "    chunk_size_problem: None,",
  "    device_count_problem: None,",
  "    reshape_problem: None,",
  "    event_count_problem: None,",
  "    device_role_index_problem: None,",
  "    device_roles_problem: None,",
  "}"] := by
  rw [← Debug.ind_zero (Debug.diagnosis _ _ _)]
  simp only [Debug.diagnosis, oneMissing, noComplaint, Debug.struct, Debug.tuple1, Debug.option, Debug.set,
    Debug.deviceId, Debug.opened, List.map_cons, List.map_nil, reduceCtorEq, if_false, Debug.ind_append,
    Debug.ind_entries_cons, Debug.ind_entries_nil]
  decide +kernel

example : Debug.arrayUuid (.short [1, 0, 255, 16]) ++ [10] = linesText [
  "Short(",
  "    [",
  "        1,",
  "        0,",
  "        255,",
  "        16,",
  "    ],",
  ")"] := by decide +kernel

example : Debug.option Debug.algorithm (some (.unsupported 4 10)) ++ [10] = linesText [
  "Some(",
  "    Unsupported {",
  "        level: 4,",
  "        layout: 10,",
  "    },",
  ")"] := by decide +kernel

example : Debug.reshape ⟨.raid5 .parity0, 8, 1, 128, 0⟩ ++ [10] = linesText [
  "ReshapeStatus {",
  "    new_algorithm: Raid5(",
  "        Parity0,",
  "    ),",
  "    reshape_position: SectorNumber(",
  "        8,",
  "    ),",
  "    delta_devices: DeviceCount(",
  "        1,",
  "    ),",
  "    new_chunk_size: SectorCount(",
  "        128,",
  "    ),",
  "    new_offset: 0,",
  "}"] := by decide +kernel

example : Debug.map [(Debug.list [], Debug.list []), (Debug.list [Debug.role ⟨65535⟩], Debug.list [])] ++ [10] = linesText [
  "{",
  "    []: [],",
  "    [",
  "        MdDeviceRole(",
  "            65535,",
  "        ),",
  "    ]: [],",
  "}"] := by decide +kernel

/-- C90: a byte that is not part of a character and the four characters that it is written as are told
apart. -/
example {ord ord' : IterOrder} (hord : ord.Valid) (hord' : ord'.Valid) (printable : Nat → Bool)
    (quote : Bytes → Bytes) (message : ErrKind → Bytes) :
    (Printed.diagnosis { noComplaint with
        missingSuperblock := some [⟨0, some [0xff]⟩] }).text ord printable quote message ≠
      (Printed.diagnosis { noComplaint with
        missingSuperblock := some [⟨0, some [0x5c, 0x78, 0x46, 0x46]⟩] }).text ord' printable quote message := by
  intro h
  have h1 := (C90_text_tells hord hord' printable quote message _ _ h).missingSuperblock
  have h2 := List.Perm.singleton_eq h1
  simp at h2

/-- C90: the disks of an array, in step, nothing else. -/
theorem C90_case {ord ord' ord'' : IterOrder} (hord : ord.Valid) (hord' : ord'.Valid) (hord'' : ord''.Valid)
    (printable : Nat → Bool) (quote : Bytes → Bytes) (message : ErrKind → Bytes) :
    ∃ s' o, mainProgram ord ord' caseFs casePaths quiet = (s', .ok o) ∧
      o.text ord'' printable quote message = cleanText := by
  obtain ⟨s', d, h, hc⟩ := C87_case hord hord'
  exact ⟨s', _, h, (C90_clean_text hord'' printable quote message d).2 hc⟩

/-- C90: nothing at the path: the output is another one. -/
example {ord ord' ord'' : IterOrder} (hord : ord.Valid) (hord' : ord'.Valid) (hord'' : ord''.Valid)
    (message : ErrKind → Bytes) :
    ¬ ∃ s' o, mainProgram ord ord' paths123 [[4]] quiet = (s', .ok o) ∧
      o.text ord'' (fun _ => true) (fun p => if 10 ∈ p then [] else p) message = cleanText := by
  rw [C90_output hord hord' hord'' paths123 [[4]] quiet quiet_noFailures (by decide)
    (fun path _ f h => paths123_sane path f h) _ _ _ (by intro p; split <;> simp_all)]
  rintro ⟨h, -⟩
  exact absurd (h [4] (by simp)) (by simp [unusable, paths123])

/-- C91: an ordinary file. -/
example {ord ord' : IterOrder} (hord : ord.Valid) (hord' : ord'.Valid) :
    exitStatus (mainProgram ord ord' paths123 [[1], [3]] quiet).2 = 0 :=
  C91_status_partial hord hord' _ _ _ (by decide) fun path _ f h => paths123_sane path f h

/-- C92: a short uuid. -/
example : (ArrayUuid.fromU32 0xab01f09).display = ascii "091fb00a" := by decide +kernel

/-- C92: uuids that differ in one bit are shown differently. -/
example : (ArrayUuid.short [1, 2, 3, 4]).display ≠ (ArrayUuid.short [1, 2, 3, 5]).display := fun h =>
  absurd (C92_uuid_distinct _ _ rfl rfl h) (by decide)

end MdRecover
