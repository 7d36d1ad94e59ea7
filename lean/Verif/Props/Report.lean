import Verif.Lemmas.ReportValues
import Verif.Props.Clean

/-! C90: the text of a report tells the findings.  C91: the exit status.  C92: a uuid as text. -/

namespace MdRecover
open MdSpec

/-! ### C90 -/

namespace Debug

theorem stop_line : Stop (ascii "\n") := ⟨10, [], by simp [ascii], .inr (.inr rfl)⟩

/-- An optional set or map is the same up to order if it is written as the same text. -/
theorem finding_unamb {α : Type} {P : List α → Bytes} (hP : Unamb P) {ord ord' : IterOrder}
    (hord : ord.Valid) (hord' : ord'.Valid) {n : Bytes} {k : Nat} {a b : Option (List α)} {l l' : List Bytes}
    {r s : Bytes}
    (h : ind k (entries ((n ++ ascii ": " ++ option (fun l => P (ord _ l)) a) :: l)) ++ r =
      ind k (entries ((n ++ ascii ": " ++ option (fun l => P (ord' _ l)) b) :: l')) ++ s) :
    SameFinding a b ∧ ind k (entries l) ++ r = ind k (entries l') ++ s := by
  have e (o : IterOrder) (a : Option (List α)) : option (fun l => P (o _ l)) a = option P (a.map (o _)) := by
    cases a <;> rfl
  rw [e, e] at h
  obtain ⟨h1, h2⟩ := field_unamb (option_unamb hP) h
  refine ⟨?_, h2⟩
  match a, b with
  | none, none => trivial
  | none, some _ => cases h1
  | some _, none => cases h1
  | some a, some b =>
    have h1 : ord _ a = ord' _ b := Option.some.inj h1
    exact (hord _ a).symm.trans (h1 ▸ hord' _ b)

theorem diagnosis_unamb {ord ord' : IterOrder} (hord : ord.Valid) (hord' : ord'.Valid) (p : Nat → Bool)
    {d d' : Diagnosis} {r s : Bytes} (h : diagnosis ord p d ++ r = diagnosis ord' p d' ++ s) :
    SameFindings d d' ∧ r = s := by
  rw [← ind_zero (diagnosis ord p d), ← ind_zero (diagnosis ord' p d')] at h
  have h := struct_fields h
  have ids := set_unamb (deviceId_unamb p)
  obtain ⟨h1, h⟩ := finding_unamb ids hord hord' h
  obtain ⟨h2, h⟩ := finding_unamb ids hord hord' h
  obtain ⟨h3, h⟩ := finding_unamb (entries_of_map_unamb p arrayUuid_unamb) hord hord' h
  obtain ⟨h4, h⟩ := finding_unamb (entries_of_map_unamb p (osStr_unamb p)) hord hord' h
  obtain ⟨h5, h⟩ := finding_unamb (entries_of_map_unamb p algorithm_unamb) hord hord' h
  obtain ⟨h6, h⟩ := finding_unamb (entries_of_map_unamb p sectorCount_unamb) hord hord' h
  obtain ⟨h7, h⟩ := finding_unamb (entries_of_map_unamb p sectorCount_unamb) hord hord' h
  obtain ⟨h8, h⟩ := finding_unamb (entries_of_map_unamb p deviceCount_unamb) hord hord' h
  obtain ⟨h9, h⟩ := finding_unamb (entries_of_map_unamb p (option_unamb reshape_unamb)) hord hord' h
  obtain ⟨h10, h⟩ := finding_unamb (entries_of_map_unamb p eventCount_unamb) hord hord' h
  obtain ⟨h11, h⟩ := finding_unamb (entries_of_map_unamb p decimal_unamb) hord hord' h
  obtain ⟨h12, h⟩ := finding_unamb (entries_of_map_unamb p (list_unamb role_unamb)) hord hord' h
  exact ⟨⟨h1, h2, h3, h4, h5, h6, h7, h8, h9, h10, h11, h12⟩, fields_end h⟩

end Debug

/-- C90: two reports that are written as the same text have the same findings: the same complaints, the same
differing values with all their digits and bytes, and for each of them the same devices under the same paths,
whatever bytes the paths and names are made of and whatever the order in which the hash maps are iterated. -/
theorem C90_text_tells {ord ord' : IterOrder} (hord : ord.Valid) (hord' : ord'.Valid)
    (printable : Nat → Bool) (quote : Bytes → Bytes) (message : ErrKind → Bytes) (d d' : Diagnosis)
    (h : (Printed.diagnosis d).text ord printable quote message =
      (Printed.diagnosis d').text ord' printable quote message) : SameFindings d d' :=
  (Debug.diagnosis_unamb hord hord' printable h).1

/-- A diagnosis without complaint. -/
def noComplaint : Diagnosis :=
  ⟨none, none, none, none, none, none, none, none, none, none, none, none⟩

theorem clean_iff_eq {d : Diagnosis} : Clean d ↔ d = noComplaint := by
  constructor
  · rintro ⟨h1, h2, h3, h4, h5, h6, h7, h8, h9, h10, h11, h12⟩
    cases d
    simp only at h1 h2 h3 h4 h5 h6 h7 h8 h9 h10 h11 h12
    simp only [h1, h2, h3, h4, h5, h6, h7, h8, h9, h10, h11, h12, noComplaint]
  · rintro rfl
    exact ⟨rfl, rfl, rfl, rfl, rfl, rfl, rfl, rfl, rfl, rfl, rfl, rfl⟩

set_option maxRecDepth 100000 in
theorem text_noComplaint (ord : IterOrder) (printable : Nat → Bool) :
    Debug.diagnosis ord printable noComplaint ++ ascii "\n" = cleanText := by
  simp only [Debug.diagnosis, noComplaint, Debug.option]
  decide +kernel

theorem _root_.MdSpec.SameFinding.none {α : Type} {a : Option (List α)} (h : SameFinding a none) : a = none := by
  cases a with
  | none => rfl
  | some _ => exact h.elim

/-- C90: the text is the one with twelve times `None` exactly if the diagnosis has no complaint. -/
theorem C90_clean_text {ord : IterOrder} (hord : ord.Valid) (printable : Nat → Bool)
    (quote : Bytes → Bytes) (message : ErrKind → Bytes) (d : Diagnosis) :
    (Printed.diagnosis d).text ord printable quote message = cleanText ↔ Clean d := by
  rw [← text_noComplaint ord printable]
  constructor
  · intro h
    have e := C90_text_tells hord hord printable quote message d noComplaint h
    exact ⟨e.deviceTooSmall.none, e.missingSuperblock.none, e.arrayUuid.none, e.arrayName.none, e.algorithm.none,
      e.size.none, e.chunkSize.none, e.deviceCount.none, e.reshape.none, e.eventCount.none, e.deviceRoles.none,
      e.deviceRoleIndex.none⟩
  · intro h
    rw [clean_iff_eq.1 h]; rfl

/-- A list of errors is never written as the text of a report without complaint: its first line has a
colon. -/
theorem errors_ne_cleanText {ord : IterOrder} {printable : Nat → Bool} {quote : Bytes → Bytes}
    {message : ErrKind → Bytes} (hquote : ∀ p, 10 ∉ quote p) (l : List (Bytes × ErrKind)) :
    (Printed.errors l).text ord printable quote message ≠ cleanText := by
  intro h
  have e : cleanText = ascii "Diagnosis {" ++ 10 :: cleanText.drop 12 := by decide +kernel
  rw [e] at h
  cases l with
  | nil => exact absurd h (by simp [Printed.text, ascii])
  | cons x l =>
    have e2 : ascii ": " = [58, 32] := by simp [ascii]
    simp only [Printed.text, List.flatMap_cons, List.append_assoc, e2] at h
    have := congrArg (List.takeWhile (· ≠ 10)) h
    rw [List.takeWhile_append_of_pos (l₁ := quote x.1)
      (by intro c hc; simp only [decide_not, Bool.not_eq_eq_eq_not, Bool.not_true, decide_eq_false_iff_not]
          rintro rfl; exact hquote _ hc)] at this
    rw [List.cons_append, List.takeWhile_cons_of_pos (by decide),
      List.takeWhile_append_of_pos (l₁ := ascii "Diagnosis {") (by simp [ascii]),
      List.takeWhile_cons_of_neg (by decide)] at this
    have h58 : (58 : UInt8) ∈ ascii "Diagnosis {" ++ [] := by rw [← this]; simp
    exact absurd h58 (by decide)

/-- C90: if no read and no ioctl fails, the output of the program is the text with twelve times `None`
exactly if all paths are block devices that can be opened, each with a superblock, that describe the same
array in the same state, and no two are of the same device of the array.  (`maybe_quote` escapes line ends.) -/
theorem C90_output {ord ord' ord'' : IterOrder} (hord : ord.Valid) (hord' : ord'.Valid) (hord'' : ord''.Valid)
    (fs : Bytes → Except Nat OsFile) (paths : List Bytes) (s : System)
    (hos : NativeDev.NoFailures s.os) (hi : s.nextId + paths.length < U64)
    (hsane : ∀ path ∈ paths, ∀ f, fs path = .ok f → Sane f)
    (printable : Nat → Bool) (quote : Bytes → Bytes) (message : ErrKind → Bytes)
    (hquote : ∀ p, 10 ∉ quote p) :
    (∃ s' o, mainProgram ord ord' fs paths s = (s', .ok o) ∧
        o.text ord'' printable quote message = cleanText) ↔
      (∀ path ∈ paths, unusable fs path = none) ∧ ∃ found, NothingWrong fs paths found := by
  rw [← C87_clean_iff hord hord' fs paths s hos hi hsane]
  constructor
  · rintro ⟨s', o, h, ht⟩
    cases o with
    | errors l => exact absurd ht (errors_ne_cleanText hquote l)
    | diagnosis d => exact ⟨s', d, h, (C90_clean_text hord'' printable quote message d).1 ht⟩
  · rintro ⟨s', d, h, hc⟩
    exact ⟨s', _, h, (C90_clean_text hord'' printable quote message d).2 hc⟩

/-! ### C91 -/

/-- C91, as far as it holds: the status is 0 whatever happens, so a status that is not 0 never means that the
devices could not be examined. -/
theorem C91_status_partial {ord ord' : IterOrder} (hord : ord.Valid) (hord' : ord'.Valid)
    (fs : Bytes → Except Nat OsFile) (paths : List Bytes) (s : System)
    (hi : s.nextId + paths.length < U64) (hsane : ∀ path ∈ paths, ∀ f, fs path = .ok f → Sane f) :
    exitStatus (mainProgram ord ord' fs paths s).2 = 0 := by
  rcases C78_failing hord hord' fs paths s hi hsane with ⟨s1, l, h1, -⟩ | ⟨s1, d', devices, h1, -⟩ <;>
    rw [h1] <;> rfl

/-- C91 is false as stated: a path that does not exist, and the status is 0. -/
theorem C91_status_counterexample (ord ord' : IterOrder) :
    ∃ (fs : Bytes → Except Nat OsFile) (s s' : System) (r : Res Printed),
      mainProgram ord ord' fs [[1]] s = (s', r) ∧ r = .ok (.errors [([1], .os 2)]) ∧ exitStatus r = 0 :=
  ⟨fun _ => .error 2, Fixture.quiet, Fixture.quiet, _, rfl, rfl, rfl⟩

/-! ### C92 -/

theorem hexValue_digit : ∀ d < 16, hexValue (Debug.digit d) = some d := by decide

theorem hexOf_flatMap (b : Bytes) :
    HexOf b (b.flatMap fun x => [Debug.digit (x.toNat / 16), Debug.digit (x.toNat % 16)]) := by
  induction b with
  | nil => exact ⟨rfl, fun i x h => by simp at h⟩
  | cons y b ih =>
    obtain ⟨h1, h2⟩ := ih
    have hy := y.toNat_lt
    rw [List.flatMap_cons]
    refine ⟨?_, fun i x hx => ?_⟩
    · rw [List.length_append, h1, List.length_cons]; simp only [List.length_cons, List.length_nil]; omega
    · cases i with
      | zero =>
        have hx : y = x := by simpa using hx
        subst hx
        exact ⟨_, _, _, _, rfl, rfl, hexValue_digit _ (by omega), hexValue_digit _ (by omega), by omega⟩
      | succ i =>
        obtain ⟨h, l, vh, vl, g1, g2, g⟩ := h2 i x (by simpa using hx)
        refine ⟨h, l, vh, vl, ?_, ?_, g⟩
        · rw [show 2 * (i + 1) = 2 * i + 1 + 1 by omega]; exact g1
        · rw [show 2 * (i + 1) + 1 = 2 * i + 1 + 1 + 1 by omega]; exact g2

theorem _root_.MdSpec.HexOf.inj {b b' t : Bytes} (h : HexOf b t) (h' : HexOf b' t) : b = b' := by
  have hl : b.length = b'.length := by have := h.1; have := h'.1; omega
  refine List.ext_getElem hl fun i h1 h2 => ?_
  obtain ⟨_, _, _, _, g1, g2, g3, g4, g5⟩ := h.2 i b[i] (List.getElem?_eq_getElem h1)
  obtain ⟨_, _, _, _, k1, k2, k3, k4, k5⟩ := h'.2 i b'[i] (List.getElem?_eq_getElem h2)
  rw [g1] at k1; cases k1
  rw [g2] at k2; cases k2
  rw [g3] at k3; cases k3
  rw [g4] at k4; cases k4
  exact UInt8.toNat_inj.1 (by rw [g5, k5])

/-- The bytes of a uuid. -/
def ArrayUuid.bytes : ArrayUuid → Bytes
  | .short b => b
  | .long b => b

/-- C92: a uuid is shown as its bytes in hexadecimal, two digits each. -/
theorem C92_uuid_text (u : ArrayUuid) : HexOf u.bytes u.display := by
  cases u <;> exact hexOf_flatMap _

/-- C92: uuids that are shown as the same text are the same: a short one has 4 bytes, a long one 16. -/
theorem C92_uuid_distinct (u v : ArrayUuid)
    (hu : match u with | .short b => b.length = 4 | .long b => b.length = 16)
    (hv : match v with | .short b => b.length = 4 | .long b => b.length = 16)
    (h : u.display = v.display) : u = v := by
  have e : u.bytes = v.bytes := (C92_uuid_text u).inj (h ▸ C92_uuid_text v)
  cases u <;> cases v <;> simp only [ArrayUuid.bytes] at e hu hv <;> subst e
  · rfl
  · omega
  · omega
  · rfl

end MdRecover
