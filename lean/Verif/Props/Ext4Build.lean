import Verif.Lemmas.Ext4Build
import Verif.Props.Ext4Session

/-! C86: builds with overflow checks (`checkedBuild`) and without (`releaseBuild`).  The theorems of the
other files about the ext4 part hold for both (they mention a build `[Build]`). -/

namespace MdRecover
open MdSpec Fixture

section
variable {W D : Type}

/-- C86 in part: any program, on any device, of any contents, also one that fails: as long as no call
panics in the build with overflow checks, the program sees the same in the build without.  Missing:
what it sees after a call that panics with the checks; it may see wrong data (`C86_open_wraps`). -/
theorem C86_same_partial (dev : StreamDev W D) (s : W × List (Handle D))
    (ops : List (Nat × SessionCall)) (n : Nat)
    (h : ∀ o ∈ (@sessionRun checkedBuild W D dev s ops).take n, o ≠ .panicked) :
    (@sessionRun releaseBuild W D dev s ops).take n
      = (@sessionRun checkedBuild W D dev s ops).take n := by
  induction ops generalizing s n with
  | nil => rfl
  | cons x ops ih =>
    cases n with
    | zero => rw [List.take_zero, List.take_zero]
    | succ n =>
      obtain ⟨i, call⟩ := x
      unfold sessionRun at h ⊢
      rw [List.take_succ_cons] at h ⊢
      have h1 := Builds.sessionStep dev i call s (h _ List.mem_cons_self)
      rw [List.take_succ_cons, h1]
      exact congrArg _ (ih _ n fun o ho => h o (List.mem_cons_of_mem _ ho))

/-- C86: the same for opening a filesystem: a result other than a panic does not depend on the checks. -/
theorem C86_open (dev : StreamDev W D) (d : D) (w w' : W) (r : Res (Ext4Fs D))
    (h : @Ext4Fs.open checkedBuild W D dev d w = (w', r)) (hr : r ≠ .panic) :
    @Ext4Fs.open releaseBuild W D dev d w = (w', r) := by
  rw [Builds.open dev d w (by rw [h]; exact hr), h]

/-- C86: the same for reading the next block of a file; `rounds` bounds its loop. -/
theorem C86_read (dev : StreamDev W D) (rounds : Nat) (buf : Bytes) (s s' : W × Ext4File D)
    (r : Res (Option (Nat × Bytes)))
    (h : @Ext4File.readNextBlock checkedBuild W D dev rounds buf s = (s', r)) (hr : r ≠ .panic) :
    @Ext4File.readNextBlock releaseBuild W D dev rounds buf s = (s', r) := by
  rw [Builds.readNextBlock dev rounds buf s (by rw [h]; exact hr), h]

/-- C86: on a volume whose descriptor table begins below 2^64, opening panics in neither build or in
both. -/
theorem C86_open_panics {dev : StreamDev W D} {G : W → Prop} {Is : D → Bytes → Prop}
    {At : W → D → Nat → Prop} (hv : VolumeSpec False dev G Is At) (c : Bytes) (w : W) (d : D)
    (hG : G w) (hI : Is d c) (ht : groupTableOf (sbOf c) < U64) (hc : OpenPanics c) :
    (∃ w', @Ext4Fs.open checkedBuild W D dev d w = (w', .panic)) ∧
      ∃ w', @Ext4Fs.open releaseBuild W D dev d w = (w', .panic) :=
  ⟨@C57_panics checkedBuild W D dev G Is At hv c w d hG hI (.inr ht) hc,
   @C57_panics releaseBuild W D dev G Is At hv c w d hG hI (.inr ht) hc⟩

end

set_option maxRecDepth 100000 in
/-- C86 is false as stated: a volume (blocks of 2^62 bytes, first data block 3) on which opening panics with
overflow checks.  Without them it succeeds, and takes the first bytes of the volume for the descriptor
of its only group, although the table would be far outside the volume. -/
theorem C86_open_wraps :
    groupTableOf (sbOf hugeBlocks) = U64 ∧
    (∃ w', @Ext4Fs.open checkedBuild _ _ InMemory.streamDev ⟨hugeBlocks, 0, 512⟩ () = (w', .panic)) ∧
    ∃ fs, @Ext4Fs.open releaseBuild _ _ InMemory.streamDev ⟨hugeBlocks, 0, 512⟩ () = ((), .ok fs) ∧
      fs.groups = [BlockGroup.new (hugeBlocks.take 64)] := by
  refine ⟨by decide +kernel, ?_, ?_⟩
  · exact @C57_panics checkedBuild _ _ _ _ _ _ InMemory.volumeSpec _ _ _ trivial rfl (.inl rfl)
      (@C57_panics_on checkedBuild).2.1
  · have h : (Ext4Fs.groups <$> (@Ext4Fs.open releaseBuild _ _ InMemory.streamDev
        ⟨hugeBlocks, 0, 512⟩ ()).2) = Res.ok [BlockGroup.new (hugeBlocks.take 64)] := by
      rw [hugeBlocks, smallFs]
      decide +kernel
    rcases e : @Ext4Fs.open releaseBuild _ _ InMemory.streamDev ⟨hugeBlocks, 0, 512⟩ ()
      with ⟨⟨⟩, fs | k | _⟩
    · rw [e] at h
      exact ⟨fs, rfl, by injection h⟩
    · rw [e] at h; cases h
    · rw [e] at h; cases h

/-- Case for C86: no call of the program that reads the hand-made filesystem panics, so it sees the same in
both builds. -/
example : (@sessionRun releaseBuild _ _ InMemory.streamDev
      ((), [.device (InMemory.new smallFs 512)]) program).take 12
    = (@sessionRun checkedBuild _ _ InMemory.streamDev ((), [.device (InMemory.new smallFs 512)])
      program).take 12 := by
  refine C86_same_partial InMemory.streamDev _ program 12 fun o ho => ?_
  rw [@program_outcomes checkedBuild] at ho
  simp only [List.take_succ_cons, List.take_zero, List.mem_cons, List.not_mem_nil, or_false] at ho
  rcases ho with rfl | rfl | rfl | rfl | rfl | rfl | rfl | rfl | rfl | rfl | rfl | rfl <;>
    exact fun h => (by cases h)

end MdRecover
