import Verif.Lemmas.ReaderRun

/-! C44-C47: the block device reader as a byte stream. -/

namespace MdRecover
open MdSpec

/-- C44, C46, C47.  Start with one new reader over a device that is a disk with content `k.content`
(which, if `F`, may fail at any call).  Any sequence of reads, seeks and clones on any of the readers has
outcomes that the abstract byte streams over `k.content` allow (`StreamRun`, Spec/Stream.lean): reads
return the bytes at the cursor; errors, possible only if `F`, do not move a cursor; seeks go where
they should and are rejected exactly when the goal is not a `u64`; there are no panics; clones are
independent. -/
theorem C44_reader_is_stream {W D : Type} {F : Prop} {dev : BlockDev W D} {G : W → Prop}
    {Is : D → Disk → Prop} (hd : DevSpec F dev G Is) {k : Disk} {d : D} (hk : Is d k)
    {w : W} (hG : G w) (ops : List ReaderOp) (hops : ∀ op ∈ ops, op.wellTyped) :
    ∃ ps, StreamRun F k.content [0] ops (runReaderOps dev ops w [Reader.new d]).2.2 ps := by
  have gen : ∀ (ops : List ReaderOp), (∀ op ∈ ops, op.wellTyped) → ∀ (w : W)
      (rs : List (Reader D)) (ps : List Nat), G w → AllAt Is k rs ps →
      ∃ ps', StreamRun F k.content ps ops (runReaderOps dev ops w rs).2.2 ps' := by
    intro ops
    induction ops with
    | nil => intro _ w rs ps _ _; exact ⟨ps, .nil⟩
    | cons op ops ih =>
      intro hops w rs ps hG hat
      obtain ⟨hG', ps', hat', hstep⟩ := runReaderOp_spec hd (hops op (by simp)) hG hat
      obtain ⟨ps'', hrun⟩ := ih (fun o ho => hops o (by simp [ho])) _ _ _ hG' hat'
      exact ⟨ps'', .cons hstep hrun⟩
  refine gen ops hops w _ _ hG ⟨rfl, fun i r p hr hp => ?_⟩
  have h0 : i = 0 := by
    have := (List.getElem?_eq_some_iff.mp hr).1
    simpa using this
  subst h0
  simp at hr hp
  subst hr; subst hp
  exact Reader.at_new (hd.wf hk) hk

/-- C45.  Over a device that never fails, a seek to `p` and an exact read of `n` bytes give the `n`
bytes at `p` if they exist, and UnexpectedEof if `n > 0` and they do not. -/
theorem C45_seek_read_exact {W D : Type} {dev : BlockDev W D} {G : W → Prop}
    {Is : D → Disk → Prop} (hd : DevSpec False dev G Is) {k : Disk} {r : Reader D} {pos : Nat}
    (hr : Reader.At Is k r pos) {w : W} (hG : G w) (p : Nat) (hp : p < U64) (buf : Bytes) :
    ((do let _ ← Reader.seek dev (.start p); readExact (Reader.read dev) buf) (w, r)).2 =
      if buf = [] ∨ p + buf.length ≤ k.content.length then
        .ok ((k.content.drop p).take buf.length)
      else .err .unexpectedEof := by
  obtain ⟨w1, r1, hG1, h⟩ := Reader.seek_spec hd hG hr (.start p) (fun q hq => by cases hq; exact hp)
  rcases h with ⟨hF, _⟩ | ⟨hbad, _⟩ | ⟨q, hq, hql, h, hr1⟩
  · exact hF.elim
  · exact absurd ⟨by simp [seekGoal], by simp only [seekGoal]; omega⟩ hbad
  have hpq : p = q := by simp only [seekGoal] at hq; omega
  subst hpq
  rw [SM.bind_ok (h := h)]
  obtain ⟨w2, r2, pos2, _, _, h2⟩ := Reader.readExact_spec hd buf hG1 hr1
  rcases h2 with ⟨hF, _⟩ | ⟨hlt, hne, h2⟩ | ⟨hok, _, h2⟩
  · exact hF.elim
  · rw [h2, if_neg (by
      rintro (h | h)
      · exact hne h
      · omega)]
  · rw [h2, if_pos hok]

/-- C45 for devices that may fail: an exact read that succeeds returned the right bytes. -/
theorem C45_seek_read_exact_honest {W D : Type} {dev : BlockDev W D} {G : W → Prop}
    {Is : D → Disk → Prop} (hd : DevSpec True dev G Is) {k : Disk} {r : Reader D} {pos : Nat}
    (hr : Reader.At Is k r pos) {w : W} (hG : G w) (p : Nat) (hp : p < U64) (buf : Bytes)
    {b : Bytes}
    (hok : ((do let _ ← Reader.seek dev (.start p); readExact (Reader.read dev) buf)
      (w, r)).2 = .ok b) :
    b.length = buf.length ∧ b = (k.content.drop p).take buf.length := by
  obtain ⟨w1, r1, hG1, h⟩ := Reader.seek_spec hd hG hr (.start p) (fun q hq => by cases hq; exact hp)
  rcases h with ⟨_, e, h, _⟩ | ⟨_, h, _⟩ | ⟨q, hq, hql, h, hr1⟩
  · rw [SM.bind_err (h := h)] at hok; cases hok
  · rw [SM.bind_err (h := h)] at hok; cases hok
  have hpq : p = q := by simp only [seekGoal] at hq; omega
  subst hpq
  rw [SM.bind_ok (h := h)] at hok
  obtain ⟨w2, r2, pos2, _, _, h2⟩ := Reader.readExact_spec hd buf hG1 hr1
  rcases h2 with ⟨_, e, h2⟩ | ⟨hlt, hne, h2⟩ | ⟨hin, _, h2⟩
  · rw [h2] at hok; cases hok
  · rw [h2] at hok; cases hok
  · rw [h2] at hok
    cases hok
    refine ⟨?_, rfl⟩
    rw [List.length_take, List.length_drop]
    rcases hin with h | h
    · subst h; simp
    · omega

end MdRecover
