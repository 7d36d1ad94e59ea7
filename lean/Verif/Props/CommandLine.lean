import Verif.Lemmas.CommandLine
import Verif.Props.Main
import Verif.Props.ReportCases

/-! C95, C96: the command line, and whether the report was written. -/

namespace MdRecover
open MdSpec MdSpec.CommandLine

/-! ### C95 -/

theorem parseArgs_complete {args d o : List Bytes} (h : Complete args d o) :
    parseArgs [] [] args = .options d o := by
  cases h with
  | items h =>
    have := parseArgs_items h [] [] []
    simpa [parseArgs] using this
  | @escaped ws d o rest h hr =>
    rw [parseArgs_items h, parseArgs.eq_def]
    simp only [show Word.of (ascii "--") = .escape from rfl, List.nil_append]
    exact if_neg fun h => hr (any_isEmpty.1 h)

theorem parseArgs_options {args d o : List Bytes} :
    parseArgs [] [] args = .options d o ↔ Complete args d o := by
  refine ⟨fun h => ?_, parseArgs_complete⟩
  have := parseArgs_outcome args.length [] [] args (Nat.le_refl _)
  rw [h] at this
  obtain ⟨d1, o1, h, rfl, rfl⟩ := this
  simpa using h

theorem Word.of_help {w : Bytes} (h : w = ascii "--help" ∨ ascii "-h" <+: w) : Word.of w = .help := by
  rcases h with rfl | ⟨t, rfl⟩
  · rfl
  · rfl

theorem Word.of_version {w : Bytes} (h : w = ascii "--version" ∨ ascii "-V" <+: w) : Word.of w = .version := by
  rcases h with rfl | ⟨t, rfl⟩
  · rfl
  · rfl

theorem parseArgs_help {args : List Bytes} : parseArgs [] [] args = .help ↔ AsksHelp args := by
  constructor
  · intro h
    have := parseArgs_outcome args.length [] [] args (Nat.le_refl _)
    rwa [h] at this
  · rintro ⟨ws, d, o, w, rest, rfl, h, hw⟩
    rw [parseArgs_items h, parseArgs.eq_def]
    simp only [Word.of_help hw]

theorem parseArgs_version {args : List Bytes} : parseArgs [] [] args = .version ↔ AsksVersion args := by
  constructor
  · intro h
    have := parseArgs_outcome args.length [] [] args (Nat.le_refl _)
    rwa [h] at this
  · rintro ⟨ws, d, o, w, rest, rfl, h, hw⟩
    rw [parseArgs_items h, parseArgs.eq_def]
    simp only [Word.of_version hw]

/-- C95: a command line has one meaning. -/
theorem C95_one_meaning (args : List Bytes) :
    (∀ d o d' o', Complete args d o → Complete args d' o' → d = d' ∧ o = o') ∧
      ¬((∃ d o, Complete args d o) ∧ AsksHelp args) ∧ ¬((∃ d o, Complete args d o) ∧ AsksVersion args) ∧
      ¬(AsksHelp args ∧ AsksVersion args) := by
  refine ⟨fun d o d' o' h h' => ?_, ?_, ?_, ?_⟩
  · have := (parseArgs_complete h).symm.trans (parseArgs_complete h')
    simpa using this
  · rintro ⟨⟨d, o, h⟩, h'⟩
    cases (parseArgs_complete h).symm.trans (parseArgs_help.2 h')
  · rintro ⟨⟨d, o, h⟩, h'⟩
    cases (parseArgs_complete h).symm.trans (parseArgs_version.2 h')
  · rintro ⟨h, h'⟩
    cases (parseArgs_help.2 h).symm.trans (parseArgs_version.2 h')

section
variable (ord ord' ord'' : IterOrder) (printable : Nat → Bool) (quote : Bytes → Bytes)
  (message : ErrKind → Bytes) (helpText versionText : Bytes) (fs : Bytes → Except Nat OsFile) (out : Stdout)

/-- C95: with a complete command line, exactly the devices named on it are examined, in their order; what is
printed is the report on them. -/
theorem C95_devices {args d o : List Bytes} (h : Complete args d o) (s s' : System) (p : Printed)
    (hm : mainProgram ord ord' fs d s = (s', .ok p)) :
    process ord ord' ord'' printable quote message helpText versionText fs (.writable none) args s =
      (s', ⟨p.text ord'' printable quote message, 0⟩) := by
  simp only [process, parseArgs_complete h, hm]
  rfl

/-- C95: outputs named on the command line have no effect. -/
theorem C95_outputs_ignored {args args' d o o' : List Bytes} (h : Complete args d o) (h' : Complete args' d o')
    (s : System) :
    process ord ord' ord'' printable quote message helpText versionText fs out args s =
      process ord ord' ord'' printable quote message helpText versionText fs out args' s := by
  simp only [process, parseArgs_complete h, parseArgs_complete h']

/-- C95: if the help text or the version is asked for, it is printed and nothing else is done. -/
theorem C95_texts (args : List Bytes) (s : System) :
    (AsksHelp args → process ord ord' ord'' printable quote message helpText versionText fs (.writable none)
        args s = (s, ⟨helpText, 0⟩)) ∧
      (AsksVersion args → process ord ord' ord'' printable quote message helpText versionText fs
        (.writable none) args s = (s, ⟨versionText, 0⟩)) := by
  constructor <;> intro h
  · simp only [process, parseArgs_help.2 h]; rfl
  · simp only [process, parseArgs_version.2 h]; rfl

/-- C95: every other command line is refused with status 2, before anything is opened; and the status is 2 in
no other case. -/
theorem C95_refused (args : List Bytes) (s : System) :
    (¬((∃ d o, Complete args d o) ∨ AsksHelp args ∨ AsksVersion args) →
        process ord ord' ord'' printable quote message helpText versionText fs out args s = (s, ⟨[], 2⟩)) ∧
      ((process ord ord' ord'' printable quote message helpText versionText fs out args s).2.status = 2 →
        ¬((∃ d o, Complete args d o) ∨ AsksHelp args ∨ AsksVersion args)) := by
  constructor
  · intro h
    cases hp : parseArgs [] [] args with
    | options d o => exact absurd (.inl ⟨d, o, parseArgs_options.1 hp⟩) h
    | help => exact absurd (.inr (.inl (parseArgs_help.1 hp))) h
    | version => exact absurd (.inr (.inr (parseArgs_version.1 hp))) h
    | usage => simp only [process, hp]
  · rintro h (⟨d, o, h'⟩ | h' | h')
    · simp only [process, parseArgs_complete h'] at h
      split at h
      · simp only [exitStatus] at h
        split at h <;> cases h
      · simp only [exitStatus] at h
        split at h <;> cases h
    · simp only [process, parseArgs_help.2 h'] at h
      cases h
    · simp only [process, parseArgs_version.2 h'] at h
      cases h

end

/-- C95: names that do not begin with `-` are devices, in order. -/
theorem C95_plain (names : List Bytes) (h : ∀ n ∈ names, n ≠ [] ∧ n.head? ≠ some 45) :
    Complete names names [] := by
  refine .items ?_
  induction names with
  | nil => exact .none
  | cons n ns ih =>
    have hn := h n (by simp)
    exact Items.item (w := [n]) (d := [n]) (o := [])
      (Item.device ⟨hn.1, .inr hn.2⟩) (ih fun m hm => h m (List.mem_cons_of_mem _ hm))

/-- C95, a case: `/dev/sda -o x --output=y - -oz -- -h`. -/
example : Complete [ascii "/dev/sda", ascii "-o", ascii "x", ascii "--output=y", ascii "-", ascii "-oz",
    ascii "--", ascii "-h"] [ascii "/dev/sda", ascii "-", ascii "-h"] [ascii "x", ascii "y", ascii "z"] :=
  parseArgs_options.1 (by decide +kernel)

/-- C95, a case: `-o -- x` is refused. -/
example : ¬((∃ d o, Complete [ascii "-o", ascii "--", ascii "x"] d o) ∨
    AsksHelp [ascii "-o", ascii "--", ascii "x"] ∨ AsksVersion [ascii "-o", ascii "--", ascii "x"]) := by
  have hu : parseArgs [] [] [ascii "-o", ascii "--", ascii "x"] = .usage := by decide +kernel
  rintro (⟨d, o, h⟩ | h | h)
  · cases hu.symm.trans (parseArgs_complete h)
  · cases hu.symm.trans (parseArgs_help.2 h)
  · cases hu.symm.trans (parseArgs_version.2 h)

/-- C95, a case: `a -hx --wrong` asks for the help text. -/
example : AsksHelp [ascii "a", ascii "-hx", ascii "--wrong"] :=
  parseArgs_help.1 (by decide +kernel)

/-! ### C96 -/

/-- C96, where the standard output is open for writing: the status is 0 exactly if all of the report has
arrived there, and otherwise it is 101. -/
theorem C96_written_partial {ord ord' : IterOrder} (hord : ord.Valid) (hord' : ord'.Valid) (ord'' : IterOrder)
    (printable : Nat → Bool) (quote : Bytes → Bytes) (message : ErrKind → Bytes)
    (helpText versionText : Bytes) (fs : Bytes → Except Nat OsFile) (room : Option Nat)
    {args d o : List Bytes} (h : Complete args d o) (s : System)
    (hi : s.nextId + d.length < U64) (hsane : ∀ path ∈ d, ∀ f, fs path = .ok f → Sane f) :
    ∃ s' p e, mainProgram ord ord' fs d s = (s', .ok p) ∧
      process ord ord' ord'' printable quote message helpText versionText fs (.writable room) args s = (s', e) ∧
      (e.status = 0 ↔ e.output = p.text ord'' printable quote message) ∧ (e.status = 0 ∨ e.status = 101) ∧
      e.output <+: p.text ord'' printable quote message := by
  have key : ∃ s' p, mainProgram ord ord' fs d s = (s', .ok p) := by
    rcases C78_failing hord hord' fs d s hi hsane with ⟨s1, l, h1, -⟩ | ⟨s1, d', devices, h1, -⟩
    · exact ⟨_, _, h1⟩
    · exact ⟨_, _, h1⟩
  obtain ⟨s', p, hm⟩ := key
  refine ⟨s', p, _, hm, by simp only [process, parseArgs_complete h, hm]; rfl, ?_⟩
  generalize p.text ord'' printable quote message = text
  cases room with
  | none => exact ⟨⟨fun _ => rfl, fun _ => rfl⟩, .inl rfl, List.prefix_refl _⟩
  | some n =>
    simp only [Stdout.arrived, Stdout.fails, exitStatus, decide_eq_true_eq]
    refine ⟨?_, ?_, List.take_prefix _ _⟩
    · split
      · rename_i hlt
        refine ⟨by simp, fun e => ?_⟩
        have := congrArg List.length e
        rw [List.length_take] at this
        omega
      · rename_i hlt
        exact ⟨fun _ => List.take_of_length_le (by omega), fun _ => rfl⟩
    · split
      · exact .inr rfl
      · exact .inl rfl

/-- C96 is false as stated: if the standard output is not open for writing, nothing arrives and the status
is 0. -/
theorem C96_lost {ord ord' : IterOrder} (hord : ord.Valid) (hord' : ord'.Valid) (ord'' : IterOrder)
    (printable : Nat → Bool) (quote : Bytes → Bytes) (message : ErrKind → Bytes)
    (helpText versionText : Bytes) (fs : Bytes → Except Nat OsFile)
    {args d o : List Bytes} (h : Complete args d o) (s : System)
    (hi : s.nextId + d.length < U64) (hsane : ∀ path ∈ d, ∀ f, fs path = .ok f → Sane f) :
    (process ord ord' ord'' printable quote message helpText versionText fs .readOnly args s).2 = ⟨[], 0⟩ := by
  rcases C78_failing hord hord' fs d s hi hsane with ⟨s1, l, h1, -⟩ | ⟨s1, d', devices, h1, -⟩ <;>
    simp only [process, parseArgs_complete h, h1] <;> rfl

/-- C96, a case: without devices, and with room for 5 bytes of the report, the status is 101. -/
example (message : ErrKind → Bytes) (fs : Bytes → Except Nat OsFile) :
    (process (fun _ l => l) (fun _ l => l) (fun _ l => l) (fun _ => true) id message [] [] fs (.writable (some 5))
      [] Fixture.quiet).2 = ⟨ascii "Diagn", 101⟩ := by
  have hp : parseArgs [] [] [] = .options [] [] := rfl
  have hm : mainProgram (fun _ l => l) (fun _ l => l) fs [] Fixture.quiet =
      (Fixture.quiet, .ok (.diagnosis noComplaint)) := rfl
  have ht : (Printed.diagnosis noComplaint).text (fun _ l => l) (fun _ => true) id message = cleanText :=
    text_noComplaint _ _
  have h1 : cleanText.take 5 = ascii "Diagn" := by decide +kernel
  have h2 : 5 < cleanText.length := by decide +kernel
  simp only [process, hp, hm, ht, Stdout.arrived, Stdout.fails, h1, h2, decide_true, if_true]

end MdRecover
