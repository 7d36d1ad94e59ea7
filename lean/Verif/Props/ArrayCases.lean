import Verif.Props.EndToEndCases
import Verif.Props.Rounds
import Verif.Props.PathFound
import Verif.Props.ArrayDamage

/-! Cases for the theorems about arrays: the hand-made filesystems on four members, or on the disks of
`EndToEndCases`. -/

namespace MdRecover
open MdSpec Fixture

/-- C98, from disks to content, a case: from the paths of the four disks and the spare to the 2500 bytes of the file
"../././data" on them. -/
theorem C98_disks_case : ∃ N s' devices, openPaths caseFs casePaths quiet = (s', .ok (devices.map .ok)) ∧
    ∀ ord : IterOrder, ord.Valid → ∀ rounds, N ≤ rounds →
      (readPath (Reader.streamDev (MdArray.dev NativeDev.streamDev.toBlockDev)) rounds
        (Reader.new (MdArray.open ord devices)) [[46, 46], [46], [100, 97, 116, 97]] s'.os).2 =
        .ok (.content ((smallFs.drop 8192).take 2500)) := by
  obtain ⟨N, h⟩ := C98_disks_to_content_partial fixture_openable.2 (by rw [smallFs_length]; decide) _ _
    C98_case_says.1
  obtain ⟨s', devices, h1, h2⟩ := h case_arrayAt (alg := .leftSymmetric) rfl quiet quiet_noFailures (by decide)
  exact ⟨N, s', devices, h1, h2⟩

/-- Four members in memory with the content `c`, of 13312 bytes, in chunks of one sector. -/
def fourMembers (c : Bytes) : List (MdDevice InMemory) :=
  memMembers .leftSymmetric 4 1 13 0 (encodeMember 2 4 1 13 c) fun _ => 512

theorem fourMembers_set {c : Bytes} (hc : c.length = 13312) : ∃ members,
    ReadableSet InMemory.IsDisk .leftSymmetric 4 1 13 members (fourMembers c) ∧ Raid6Set 2 4 1 13 members c := by
  have hml := encodeMember_length (L := 2) (n := 4) (c := 1) (size := 13) (content := c) (by decide) (by decide)
    ⟨13, rfl⟩ hc
  refine ⟨_, memMembers_readable (by decide) (by decide) (fun i hi => ?_),
    encode_set (by decide) (by decide) (by decide) ⟨13, rfl⟩ (by decide) hc _ fun i _ => List.prefix_refl _⟩
  rw [hml]
  exact ⟨by decide, by decide, by decide, Nat.dvd_mul_left _ _⟩

/-- C98, on an array, a case. -/
theorem C98_array_case : ∃ N, ∀ ord : IterOrder, ord.Valid → ∀ rounds, N ≤ rounds →
    (readPath (Reader.streamDev (MdArray.dev InMemory.dev)) rounds
      (Reader.new (MdArray.open ord (fourMembers smallFs))) [[46, 46], [46], [100, 97, 116, 97]] ()).2 =
      .ok (.content ((smallFs.drop 8192).take 2500)) := by
  obtain ⟨N, h⟩ := C98_array_partial (L := 2) (n := 4) (c := 1) (size := 13) fixture_openable.2
    (by rw [smallFs_length]; decide) _ _ C98_case_says.1
  obtain ⟨members, h1, h2⟩ := fourMembers_set smallFs_length
  refine ⟨N, fun ord hord rounds hr => ?_⟩
  rcases h InMemory.devSpec hord rfl h1 h2 () trivial rounds with h | ⟨h, -⟩ | ⟨h, -⟩
  · exact h
  · exact h.elim
  · omega

/-- C112, on an array, a case: whatever the program answers about "data". -/
theorem C112_array_case {ord : IterOrder} (hord : ord.Valid) (rounds : Nat) (out : Found) (hne : out ≠ .running)
    (h : (readPath (Reader.streamDev (MdArray.dev InMemory.dev)) rounds
      (Reader.new (MdArray.open ord (fourMembers smallFs))) [[100, 97, 116, 97]] ()).2 = .ok out) :
    Backed smallFs [[100, 97, 116, 97]] out := by
  obtain ⟨-, -, a3, -, -, -⟩ := case_counts
  obtain ⟨members, h1, h2⟩ := fourMembers_set smallFs_length
  exact (C112_array InMemory.devSpec hord (L := 2) rfl h1 h2 (by rw [smallFs_length]; decide) (.inr a3)
    case_counted.1 () trivial _ rounds out hne h).2

/-- C117, on an array, a case: no program panics. -/
theorem C117_array_case {ord : IterOrder} (hord : ord.Valid) (ops : List (Nat × SessionCall))
    (hops : ∀ x ∈ ops, x.2.wellTyped) :
    SessionOut.panicked ∉ sessionRun (Reader.streamDev (MdArray.dev InMemory.dev))
      ((), [.device (Reader.new (MdArray.open ord (fourMembers threeFs)))]) ops := by
  obtain ⟨members, h1, h2⟩ := fourMembers_set threeFs_length
  exact C117_array InMemory.devSpec hord (L := 2) rfl h1 h2 (by rw [threeFs_length]; decide) C121_case_holds () trivial
    ops hops

/-- C121, on an array, a case: every call of any program returns within 14 rounds. -/
theorem C121_array_case {ord : IterOrder} (hord : ord.Valid) (ops : List (Nat × SessionCall))
    (hops : ∀ x ∈ ops, x.2.wellTyped) (hg : ∀ x ∈ ops, x.2.given 14) :
    SessionOut.running ∉ sessionRun (Reader.streamDev (MdArray.dev InMemory.dev))
      ((), [.device (Reader.new (MdArray.open ord (fourMembers threeFs)))]) ops := by
  obtain ⟨members, h1, h2⟩ := fourMembers_set threeFs_length
  exact (C121_array InMemory.devSpec hord (L := 2) rfl h1 h2 (by rw [threeFs_length]; decide) C121_case_holds 14
    C121_case_rounds () trivial ops hops hg).1

/-- C100, a case: one of the four members has been overwritten with zeros. -/
theorem C100_replaced_case {ord : IterOrder} (hord : ord.Valid) (j : Nat) :
    let run := sessionRun (Reader.streamDev (MdArray.dev InMemory.dev)) ((), [.device (Reader.new
      (MdArray.open ord (memMembers .leftSymmetric 4 1 13 0
        (replaced (encodeMember 2 4 1 13 smallFs) j (zeros 6656)) fun _ => 512)))]) program
    let plain := sessionRun InMemory.streamDev ((), [.device (InMemory.new smallFs 512)]) program
    run = plain ∨ ∃ k e, run.take k = plain.take k ∧ run[k]? = some (.error e) :=
  C100_one_member_replaced hord (L := 2) rfl (by decide) (by decide) (by decide) ⟨13, rfl⟩ (by decide) smallFs_length
    (bs := fun _ => 512) (fun _ _ => ⟨by decide, by decide, Nat.dvd_mul_left _ _⟩) j List.length_replicate program
    program_wellTyped

/-- C100, why at most one, a case: instead of a filesystem, zeros are read. -/
example {ord : IterOrder} (hord : ord.Valid) := C100_two_members_unnoticed hord (L := 2) (c := 2) (size := 26)
  (alg := .leftSymmetric) (content := smallFs) (other := zeros 13312) rfl (by decide) ⟨13, rfl⟩ (by decide)
  smallFs_length List.length_replicate

end MdRecover
