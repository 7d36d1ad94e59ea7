import Verif.Spec.Ext4Session
import Verif.Lemmas.Basic

/-! Builds with and without overflow checks: a computation that does not panic with the checks gives the
same without them. -/

namespace MdRecover
open MdSpec

/-- Without a panic, the second result is the first. -/
def ResKeeps {α : Type} (r1 r2 : Res α) : Prop := r1 ≠ .panic → r2 = r1

namespace ResKeeps

theorem refl {α : Type} (r : Res α) : ResKeeps r r := fun _ => rfl

theorem bind {α β : Type} {r1 r2 : Res α} {f1 f2 : α → Res β} (h : ResKeeps r1 r2)
    (hf : ∀ a, ResKeeps (f1 a) (f2 a)) : ResKeeps (r1 >>= f1) (r2 >>= f2) := by
  intro hp
  cases r1 with
  | ok a => rw [h (by intro h; cases h)]; exact hf a hp
  | err e => rw [h (by intro h; cases h)]; rfl
  | panic => exact absurd rfl hp

end ResKeeps

/-- Without a panic, the second computation does the same as the first. -/
def Keeps {S α : Type} (m1 m2 : SM S α) : Prop := ∀ s, (m1 s).2 ≠ .panic → m2 s = m1 s

namespace Keeps
variable {S α β : Type}

theorem refl (m : SM S α) : Keeps m m := fun _ _ => rfl

theorem bind {m1 m2 : SM S α} {f1 f2 : α → SM S β} (h : Keeps m1 m2)
    (hf : ∀ a, Keeps (f1 a) (f2 a)) : Keeps (m1 >>= f1) (m2 >>= f2) := by
  intro s hp
  have h := h s
  rcases e : m1 s with ⟨s', a | k | _⟩
  · rw [e] at h
    rw [SM.bind_ok (h := e)] at hp ⊢
    rw [SM.bind_ok (h := h (by intro h; cases h))]
    exact hf a s' hp
  · rw [e] at h
    rw [SM.bind_err (h := e), SM.bind_err (h := h (by intro h; cases h))]
  · rw [SM.bind_panic (h := e)] at hp
    exact absurd rfl hp

theorem lift {r1 r2 : Res α} (h : ResKeeps r1 r2) : Keeps (SM.lift r1 : SM S α) (SM.lift r2) := by
  intro s hp
  show (s, r2) = (s, r1)
  rw [h hp]

theorem zoom {T : Type} {view : S → T} {set : S → T → S} {m1 m2 : SM T α} (h : Keeps m1 m2) :
    Keeps (SM.zoom view set m1) (SM.zoom view set m2) := by
  intro s hp
  unfold SM.zoom
  rw [h (view s) hp]

theorem withLocal {W D : Type} {d : D} {m1 m2 : SM (W × D) α} (h : Keeps m1 m2) :
    Keeps (SM.withLocal d m1) (SM.withLocal d m2) := by
  intro s hp
  unfold SM.withLocal
  rw [h (s, d) hp]

theorem ite {c : Prop} [Decidable c] {m1 m2 n1 n2 : SM S α} (h : Keeps m1 m2) (h' : Keeps n1 n2) :
    Keeps (if c then m1 else n1) (if c then m2 else n2) := by
  split
  · exact h
  · exact h'

/-- The second computation may be chosen after the state is known. -/
theorem get {f1 f2 : S → SM S β} (hf : ∀ a, Keeps (f1 a) (f2 a)) :
    Keeps (SM.get >>= f1) (SM.get >>= f2) := bind (refl _) hf

end Keeps

namespace Builds

theorem add32 (a b : Nat) : ResKeeps (@add32 checkedBuild a b) (@add32 releaseBuild a b) := by
  intro h
  unfold MdRecover.add32 at h ⊢
  split
  · rfl
  · rename_i hn
    rw [if_neg hn] at h
    exact absurd rfl h

theorem mul64 (a b : Nat) : ResKeeps (@mul64 checkedBuild a b) (@mul64 releaseBuild a b) := by
  intro h
  unfold MdRecover.mul64 at h ⊢
  split
  · rfl
  · rename_i hn
    rw [if_neg hn] at h
    exact absurd rfl h

theorem blockSizeBytes (s : Ext4Superblock) :
    ResKeeps (@Ext4Superblock.blockSizeBytes checkedBuild s)
      (@Ext4Superblock.blockSizeBytes releaseBuild s) :=
  (add32 _ _).bind fun _ => .refl _

theorem clusterSizeBlocks (s : Ext4Superblock) :
    ResKeeps (@Ext4Superblock.clusterSizeBlocks checkedBuild s)
      (@Ext4Superblock.clusterSizeBlocks releaseBuild s) :=
  (add32 _ _).bind fun _ => .refl _

theorem valid (s : Ext4Superblock) :
    ResKeeps (@Ext4Superblock.valid checkedBuild s) (@Ext4Superblock.valid releaseBuild s) := by
  unfold Ext4Superblock.valid
  split
  · refine ResKeeps.bind ?_ fun _ => .refl _
    unfold Ext4Superblock.validClusterSize
    split
    · split
      · exact .refl _
      · exact (clusterSizeBlocks s).bind fun _ => (blockSizeBytes s).bind fun _ => .refl _
    · exact .refl _
  · exact .refl _

section
variable {W D : Type} (dev : StreamDev W D)

theorem sbRead {S : Type} (reader : Bytes → SM S (Nat × Bytes)) :
    Keeps (@Ext4Superblock.read checkedBuild S reader) (@Ext4Superblock.read releaseBuild S reader) := by
  unfold Ext4Superblock.read
  exact .bind (.refl _) fun _ => .bind (.lift (valid _)) fun _ => .refl _

theorem «open» (d : D) :
    Keeps (@Ext4Fs.open checkedBuild W D dev d) (@Ext4Fs.open releaseBuild W D dev d) := by
  unfold Ext4Fs.open
  refine .withLocal (.bind ?_ fun _ => .refl _)
  unfold Ext4Fs.openBody
  refine .bind (.refl _) fun _ => .bind (sbRead _) fun sb => .bind (.refl _) fun _ => .ite (.refl _) ?_
  exact .bind (.lift (blockSizeBytes _)) fun _ => .bind (.lift (mul64 _ _)) fun _ => .refl _

theorem inodeOffset (fs : Ext4Fs D) (n : Nat) :
    ResKeeps (@Ext4Fs.inodeOffset checkedBuild D fs n) (@Ext4Fs.inodeOffset releaseBuild D fs n) := by
  unfold Ext4Fs.inodeOffset
  split
  · exact .refl _
  · exact .bind (.refl _) fun _ => .bind (.refl _) fun _ => .bind (.refl _) fun _ =>
      .bind (blockSizeBytes _) fun _ => .refl _

theorem readInode (n : Nat) :
    Keeps (@Ext4Fs.readInode checkedBuild W D dev n) (@Ext4Fs.readInode releaseBuild W D dev n) := by
  unfold Ext4Fs.readInode
  exact .get fun _ => .bind (.lift (inodeOffset _ _)) fun _ => .refl _

theorem readBlock (n : Nat) (buf : Bytes) :
    Keeps (@Ext4Fs.readBlock checkedBuild W D dev n buf)
      (@Ext4Fs.readBlock releaseBuild W D dev n buf) := by
  unfold Ext4Fs.readBlock
  exact .get fun _ => .bind (.lift (blockSizeBytes _)) fun _ => .refl _

theorem openFile (n : Nat) :
    Keeps (@Ext4Fs.openFile checkedBuild W D dev n) (@Ext4Fs.openFile releaseBuild W D dev n) := by
  unfold Ext4Fs.openFile
  exact .get fun _ => .bind (.refl _) fun _ => .bind (readInode dev n) fun _ => .refl _

theorem step (buf : Bytes) :
    Keeps (@Ext4File.step checkedBuild W D dev buf) (@Ext4File.step releaseBuild W D dev buf) := by
  unfold Ext4File.step
  refine .get fun s => ?_
  dsimp only
  rcases s.2.stack with _ | ⟨⟨t, pos⟩ | ⟨e, pos⟩, rest⟩
  · exact .refl _
  · refine .bind (.refl _) fun _ => ?_
    unfold Ext4File.stepTree
    refine .ite ?_ (.refl _)
    cases t with
    | leaf n => exact .refl _
    | branch n =>
      unfold Ext4File.stepBranch
      refine .get fun _ => .bind (.refl _) fun _ => .ite (.refl _) ?_
      exact .bind (.lift (blockSizeBytes _)) fun _ => .bind (.zoom (readBlock dev _ _)) fun _ => .refl _
  · refine .bind (.refl _) fun _ => ?_
    unfold Ext4File.stepExtent
    refine .get fun _ => .ite (.ite (.refl _) ?_) (.refl _)
    exact .bind (.zoom (readBlock dev _ _)) fun _ => .bind (.lift (blockSizeBytes _)) fun _ =>
      .bind (.refl _) fun _ => .bind (.refl _) fun _ => .bind (.lift (add32 _ _)) fun _ => .refl _

theorem readNextBlock (rounds : Nat) (buf : Bytes) :
    Keeps (@Ext4File.readNextBlock checkedBuild W D dev rounds buf)
      (@Ext4File.readNextBlock releaseBuild W D dev rounds buf) := by
  unfold Ext4File.readNextBlock
  refine .get fun _ => .bind (.lift (blockSizeBytes _)) fun _ => .ite (.refl _) ?_
  induction rounds with
  | zero => exact .refl _
  | succ n ih =>
    refine .bind (step dev buf) fun r => ?_
    cases r with
    | some a => exact .refl _
    | none => exact ih

theorem advance (rounds : Nat) :
    Keeps (@Ext4Directory.advance checkedBuild W D dev rounds)
      (@Ext4Directory.advance releaseBuild W D dev rounds) := by
  unfold Ext4Directory.advance
  exact .get fun _ => .bind (.lift (blockSizeBytes _)) fun _ =>
    .bind (.zoom (readNextBlock dev _ _)) fun _ => .refl _

theorem dirLoop (rounds n : Nat) :
    Keeps (@Ext4Directory.loop checkedBuild W D dev rounds n)
      (@Ext4Directory.loop releaseBuild W D dev rounds n) := by
  induction n with
  | zero => exact .refl _
  | succ n ih =>
    refine .get fun s => ?_
    cases s.2.current with
    | start => exact .refl _
    | «end» => exact .refl _
    | block b =>
      refine .bind (.refl _) fun r => .bind (.refl _) fun _ => ?_
      cases r.1 with
      | some e => exact .refl _
      | none =>
        refine .bind (advance dev rounds) fun a => ?_
        cases a with
        | none => exact .refl _
        | some a => exact ih

theorem readNextEntry (rounds : Nat) :
    Keeps (@Ext4Directory.readNextEntry checkedBuild W D dev rounds)
      (@Ext4Directory.readNextEntry releaseBuild W D dev rounds) := by
  unfold Ext4Directory.readNextEntry
  refine .get fun s => ?_
  cases s.2.current with
  | start =>
    refine .bind (advance dev rounds) fun a => ?_
    cases a with
    | none => exact .refl _
    | some a => exact dirLoop dev _ _
  | block b => exact dirLoop dev _ _
  | «end» => exact dirLoop dev _ _

theorem handleCall (call : SessionCall) (h : Handle D) :
    Keeps (@MdSpec.handleCall checkedBuild W D dev call h)
      (@MdSpec.handleCall releaseBuild W D dev call h) := by
  cases h with
  | device d =>
    cases call with
    | mount => exact .zoom (.bind (.refl _) fun _ => .bind (.zoom («open» dev _)) fun _ => .refl _)
    | _ => exact .refl _
  | fs fs =>
    cases call with
    | blockSize => exact .zoom (.bind (.lift (blockSizeBytes _)) fun _ => .refl _)
    | inode n => exact .zoom (.bind (readInode dev n) fun _ => .refl _)
    | rootInode => exact .zoom (.bind (readInode dev 2) fun _ => .refl _)
    | block n buf => exact .zoom (.bind (readBlock dev n buf) fun _ => .refl _)
    | openFile n => exact .zoom (.bind (openFile dev n) fun _ => .refl _)
    | _ => exact .refl _
  | file f =>
    cases call with
    | nextBlock rounds buf => exact .zoom (.bind (readNextBlock dev rounds buf) fun _ => .refl _)
    | _ => exact .refl _
  | dir d =>
    cases call with
    | nextEntry rounds => exact .zoom (.bind (readNextEntry dev rounds) fun _ => .refl _)
    | _ => exact .refl _

theorem sessionStep (i : Nat) (call : SessionCall) (s : W × List (Handle D))
    (h : (@MdSpec.sessionStep checkedBuild W D dev i call s).2 ≠ .panicked) :
    @MdSpec.sessionStep releaseBuild W D dev i call s
      = @MdSpec.sessionStep checkedBuild W D dev i call s := by
  unfold MdSpec.sessionStep at h ⊢
  rcases hs : s.2[i]? with _ | x
  · rfl
  · rw [hs] at h
    simp only at h ⊢
    rw [handleCall dev call x (s.1, x)]
    intro hp
    rcases e : @MdSpec.handleCall checkedBuild W D dev call x (s.1, x) with ⟨⟨w, h'⟩, r⟩
    rw [e] at hp h
    cases hp
    exact h rfl

end
end Builds
end MdRecover
