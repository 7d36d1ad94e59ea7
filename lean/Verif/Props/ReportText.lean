import Verif.Lemmas.ReportText

/-! C93: what is written in a report, line by line. -/

namespace MdRecover
open MdSpec MdSpec.ReportText

/-- The diagnosis with its sets and maps in the order in which they are iterated. -/
def Diagnosis.reordered (ord : IterOrder) (d : Diagnosis) : Diagnosis where
  deviceTooSmall := d.deviceTooSmall.map (ord _)
  missingSuperblock := d.missingSuperblock.map (ord _)
  arrayUuid := d.arrayUuid.map (ord _)
  arrayName := d.arrayName.map (ord _)
  algorithm := d.algorithm.map (ord _)
  size := d.size.map (ord _)
  chunkSize := d.chunkSize.map (ord _)
  deviceCount := d.deviceCount.map (ord _)
  reshape := d.reshape.map (ord _)
  eventCount := d.eventCount.map (ord _)
  deviceRoleIndex := d.deviceRoleIndex.map (ord _)
  deviceRoles := d.deviceRoles.map (ord _)

theorem sameFinding_reordered {α : Type} {ord : IterOrder} (hord : ord.Valid) (a : Option (List α)) :
    SameFinding a (a.map (ord _)) := by
  cases a with
  | none => trivial
  | some a => exact (hord _ a).symm

namespace Debug

theorem rep_finding {α : Type} {f : List α → List Line} {g : List α → Bytes} (h : ∀ l, Rep (f l) (g l))
    (ord : IterOrder) (a : Option (List α)) :
    Rep (optional f (a.map (ord _))) (option (fun l => g (ord _ l)) a) := by
  cases a with
  | none => exact rep_optional h none
  | some a => exact rep_optional h (some (ord _ a))

theorem rep_diagnosis (ord : IterOrder) (p : Nat → Bool) (d : Diagnosis) :
    Rep (report (inner p) (d.reordered ord)) (diagnosis ord p d) :=
  rep_record (by decide) (by simp)
    (.cons (field_ok (by decide) (rep_finding (rep_devices p) ord _))
    (.cons (field_ok (by decide) (rep_finding (rep_devices p) ord _))
    (.cons (field_ok (by decide) (rep_finding (rep_table p rep_uuid) ord _))
    (.cons (field_ok (by decide) (rep_finding (rep_table p (rep_osStr p)) ord _))
    (.cons (field_ok (by decide) (rep_finding (rep_table p rep_algorithm) ord _))
    (.cons (field_ok (by decide) (rep_finding (rep_table p fun n => rep_wrapped (by decide) (rep_number n)) ord _))
    (.cons (field_ok (by decide) (rep_finding (rep_table p fun n => rep_wrapped (by decide) (rep_number n)) ord _))
    (.cons (field_ok (by decide) (rep_finding (rep_table p fun n => rep_wrapped (by decide) (rep_number n)) ord _))
    (.cons (field_ok (by decide) (rep_finding (rep_table p (rep_optional rep_reshape)) ord _))
    (.cons (field_ok (by decide) (rep_finding (rep_table p fun n => rep_wrapped (by decide) (rep_number n)) ord _))
    (.cons (field_ok (by decide) (rep_finding (rep_table p rep_number) ord _))
    (.cons (field_ok (by decide) (rep_finding (rep_table p
      (rep_row fun r : Role => rep_wrapped (by decide) (rep_number r.val))) ord _)) .nil))))))))))))

end Debug

/-- C93: the lines of a report.  Each kind of complaint is written under its name, values in decimal, paths and
names character by character; only the order in sets and maps is not determined. -/
theorem C93_report_lines {ord : IterOrder} (hord : ord.Valid) (printable : Nat → Bool) (quote : Bytes → Bytes)
    (message : ErrKind → Bytes) :
    ∃ q : Bytes → Bytes, (∀ b, Shown printable b (q b)) ∧
      ∀ d : Diagnosis, ∃ d', SameFindings d d' ∧
        (Printed.diagnosis d).text ord printable quote message = toBytes (report q d') := by
  refine ⟨Debug.inner printable, Debug.inner_shown printable, fun d => ⟨d.reordered ord, ?_, ?_⟩⟩
  · constructor <;> exact sameFinding_reordered hord _
  · rw [(Debug.rep_diagnosis ord printable d).2.1, Printed.text]
    congr 1

/-- C93: if paths could not be opened, there is a line for each of them, in order. -/
theorem C93_error_lines (ord : IterOrder) (printable : Nat → Bool) (quote : Bytes → Bytes)
    (message : ErrKind → Bytes) (l : List (Bytes × ErrKind)) :
    (Printed.errors l).text ord printable quote message =
      toBytes (l.map fun e => (0, quote e.1 ++ ascii ": " ++ message e.2)) := by
  rw [Printed.text, toBytes, List.flatMap_map]
  simp [ascii]

/-- C93: what is written for a byte string is determined. -/
theorem C93_shown_unique {printable : Nat → Bool} {b t u : Bytes} (ht : Shown printable b t)
    (hu : Shown printable b u) : t = u := by
  induction ht generalizing u with
  | nil =>
    generalize hb : ([] : Bytes) = b at hu
    cases hu with
    | nil => rfl
    | char hc h => exact absurd (List.append_eq_nil_iff.1 hb.symm).1 (Utf8.utf8Of_ne_nil _)
    | stray => cases hb
  | @char c rest t hc _ ih =>
    generalize hb : utf8Of c ++ rest = b at hu
    cases hu with
    | nil => exact absurd (List.append_eq_nil_iff.1 hb).1 (Utf8.utf8Of_ne_nil _)
    | @char d rest' t' hd h =>
      obtain ⟨rfl, rfl⟩ := Debug.utf8Of_prefix hc hd hb
      rw [ih h]
    | stray hs h => exact absurd ⟨c, hc, rest, hb⟩ hs
  | @stray x rest t hs _ ih =>
    generalize hb : x :: rest = b at hu
    cases hu with
    | nil => cases hb
    | @char d rest' t' hd h => exact absurd ⟨d, hd, rest', hb.symm⟩ hs
    | stray _ h =>
      cases hb
      rw [ih h]

/-! ## A concrete case -/

/-- C93, a case: a path with a character of two bytes, a byte that is no character, and a quotation mark. -/
theorem C93_case_path : Shown (fun _ => true) [0x2f, 0xc3, 0xa4, 0xff, 0x22]
    (ascii "/" ++ [0xc3, 0xa4] ++ ascii "\\xFF\\\"") := by
  have h := Debug.inner_shown (fun _ => true) [0x2f, 0xc3, 0xa4, 0xff, 0x22]
  have e : Debug.inner (fun _ => true) [0x2f, 0xc3, 0xa4, 0xff, 0x22] =
      ascii "/" ++ [0xc3, 0xa4] ++ ascii "\\xFF\\\"" := by decide +kernel
  rwa [e] at h

/-- C93, a case: sizes differ, and one device has no superblock. -/
theorem C93_case_lines (q : Bytes → Bytes) (hq : q [0x2f] = ascii "/") :
    toBytes (report q ⟨none, some [⟨7, some [0x2f]⟩], none, none, none, some [(40, [⟨1, none⟩]), (0, [])], none,
      none, none, none, none, none⟩) = linesText [
  "Diagnosis {",
  "    device_too_small_problem: None,",
  "    missing_superblock_problem: Some(",
  "        {",
  "            MdDeviceId {",
  "                internal_index: 7,",
  "                user_reference: Some(",
  "                    \"/\",",
  "                ),",
  "            },",
  "        },",
  "    ),",
  "    array_uuid_problem: None,",
  "    array_name_problem: None,",
  "    algorithm_problem: None,",
  "    size_problem: Some(",
  "        {",
  "            SectorCount(",
  "                40,",
  "            ): [",
  "                MdDeviceId {",
  "                    internal_index: 1,",
  "                    user_reference: None,",
  "                },",
  "            ],",
  "            SectorCount(",
  "                0,",
  "            ): [],",
  "        },",
  "    ),",
  "    chunk_size_problem: None,",
  "    device_count_problem: None,",
  "    reshape_problem: None,",
  "    event_count_problem: None,",
  "    device_role_index_problem: None,",
  "    device_roles_problem: None,",
  "}"] := by
  simp only [report, ReportText.optional, devices, device, List.map_cons, List.map_nil, hq, table]
  decide +kernel

end MdRecover
