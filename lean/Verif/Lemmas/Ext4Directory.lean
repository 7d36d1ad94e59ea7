import Verif.Lemmas.Ext4DirBlock
import Verif.Lemmas.Ext4FileCalls

namespace MdRecover
variable [Build]
open MdSpec

namespace Ext4Directory
variable {W D : Type} {F : Prop} {dev : StreamDev W D} {G : W → Prop} {Is : D → Bytes → Prop}
  {At : W → D → Nat → Prop}

/-- The state after reading a block: `r` is the result. -/
def afterRead (s : W × Ext4Directory D) (t : W × Ext4File D) (bs : Nat) :
    Res (Option (Nat × Bytes)) → (W × Ext4Directory D) × Res (Option Unit)
  | .ok none => ((t.1, { s.2 with internal := t.2 }), .ok none)
  | .ok (some (n, out)) =>
    match toBlock bs s.2.internal.inode.metadataChecksumSeed n out with
    | .ok b => ((t.1, { internal := t.2, current := b }), .ok (some ()))
    | .err e => ((t.1, { s.2 with internal := t.2 }), .err e)
    | .panic => ((t.1, { s.2 with internal := t.2 }), .panic)
  | .err e => ((t.1, { s.2 with internal := t.2 }), .err e)
  | .panic => ((t.1, { s.2 with internal := t.2 }), .panic)

omit [Build] in
theorem onFile_eq {α : Type} {m : SM (W × Ext4File D) α} {s : W × Ext4Directory D}
    {t : W × Ext4File D} {r : Res α} (h : m (s.1, s.2.internal) = (t, r)) :
    onFile m s = ((t.1, { s.2 with internal := t.2 }), r) := by
  unfold onFile SM.zoom
  simp only [h]

theorem advance_eq {s : W × Ext4Directory D} {bs : Nat} (hbs : s.2.internal.blockSize = .ok bs)
    {fuel : Nat} {t : W × Ext4File D} {r : Res (Option (Nat × Bytes))}
    (h : Ext4File.readNextBlock dev fuel (zeros bs) (s.1, s.2.internal) = (t, r)) :
    advance dev fuel s = afterRead s t bs r := by
  show (SM.lift s.2.internal.blockSize >>= _) s = _
  rw [hbs]
  show (onFile (Ext4File.readNextBlock dev fuel (zeros bs)) >>= _) s = _
  have h1 := onFile_eq (s := s) h
  match r with
  | .ok none => rw [SM.bind_ok (h := h1)]; rfl
  | .ok (some (n, out)) =>
    rw [SM.bind_ok (h := h1)]
    show (SM.lift (toBlock bs s.2.internal.inode.metadataChecksumSeed n out) >>= _) _ = _
    rcases hb : toBlock bs s.2.internal.inode.metadataChecksumSeed n out with b | e | _ <;>
      simp only [afterRead, hb] <;> rfl
  | .err e => rw [SM.bind_err (h := h1)]; rfl
  | .panic => rw [SM.bind_panic (h := h1)]; rfl

/-- Reading the next block has the outcome `r`. -/
def Advances (dev : StreamDev W D) (s s' : W × Ext4Directory D) (r : Res Unit) : Prop :=
  ∃ fuel, advance dev fuel s = (s', some <$> r)

omit [Build] in
theorem some_ne {α : Type} (r : Res α) : (some <$> r : Res (Option α)) ≠ .ok none := by
  cases r <;> (intro h; cases h)

omit [Build] in
theorem some_inj {α : Type} {r r' : Res α} (h : some <$> r = some <$> r') : r = r' := by
  cases r <;> cases r' <;> cases h <;> rfl

omit [Build] in
theorem some_surj {α : Type} {r : Res (Option α)} (h : r ≠ .ok none) : ∃ r', r = some <$> r' := by
  match r with
  | .ok (some a) => exact ⟨.ok a, rfl⟩
  | .ok none => exact absurd rfl h
  | .err e => exact ⟨.err e, rfl⟩
  | .panic => exact ⟨.panic, rfl⟩

omit [Build] in
theorem afterRead_none {s : W × Ext4Directory D} {t : W × Ext4File D} {bs : Nat}
    {r : Res (Option (Nat × Bytes))} (h : (afterRead s t bs r).2 ≠ .ok none) : r ≠ .ok none := by
  rintro rfl
  exact h rfl

theorem advance_more {fuel : Nat} {s s' : W × Ext4Directory D} {r : Res (Option Unit)}
    (h : advance dev fuel s = (s', r)) (hr : r ≠ .ok none) (k : Nat) :
    advance dev (fuel + k) s = (s', r) := by
  rcases hb : s.2.internal.blockSize with bs | e | _
  · obtain ⟨t, r0, h0⟩ : ∃ t r0,
      Ext4File.readNextBlock dev fuel (zeros bs) (s.1, s.2.internal) = (t, r0) := ⟨_, _, rfl⟩
    have h1 := advance_eq hb h0
    rw [h] at h1
    have h2 : r0 ≠ .ok none := afterRead_none (s := s) (t := t) (bs := bs) (by rw [← h1]; exact hr)
    rw [advance_eq hb (Ext4File.readNextBlock_more h0 h2 k), ← h1]
  all_goals
    have he : ∀ n, advance dev n s = (SM.lift s.2.internal.blockSize >>= fun bs => (do
        let r ← onFile (Ext4File.readNextBlock dev n (zeros bs))
        match r with
        | none => pure none
        | some (n, storage) => do
          let b ← SM.lift (toBlock bs s.2.internal.inode.metadataChecksumSeed n storage)
          setCurrent b
          pure (some ()))) s := fun _ => rfl
    rw [he, hb] at h ⊢
    exact h

/-- The outcome of reading the next block, by the outcome of the file. -/
theorem advances_iff {s s' : W × Ext4Directory D} {bs : Nat}
    (hbs : s.2.internal.blockSize = .ok bs) {r : Res Unit} :
    Advances dev s s' r ↔ ∃ t r0, Returns dev (s.1, s.2.internal) (zeros bs) t r0 ∧
      afterRead s t bs (some <$> r0) = (s', some <$> r) := by
  constructor
  · rintro ⟨fuel, h⟩
    obtain ⟨t, r0, h0⟩ : ∃ t r0,
      Ext4File.readNextBlock dev fuel (zeros bs) (s.1, s.2.internal) = (t, r0) := ⟨_, _, rfl⟩
    have h1 := advance_eq hbs h0
    rw [h] at h1
    have h2 : r0 ≠ .ok none := afterRead_none (s := s) (t := t) (bs := bs)
      (by rw [← h1]; exact some_ne r)
    obtain ⟨r1, rfl⟩ := some_surj h2
    exact ⟨t, r1, ⟨fuel, h0⟩, h1.symm⟩
  · rintro ⟨t, r0, ⟨fuel, h0⟩, h1⟩
    exact ⟨fuel, by rw [advance_eq hbs h0, h1]⟩

/-- The result of a call whose reading of a block failed. -/
def failed : Res Unit → Res (Option DirEntry)
  | .ok () => .ok none
  | .err e => .err e
  | .panic => .panic

/-- Assignment to the current block. -/
def withCurrent (s : W × Ext4Directory D) (b : CurrentBlock) : W × Ext4Directory D :=
  (s.1, { s.2 with current := b })

/-- The loop of `read_next_entry` runs from a state to a state with a result. -/
inductive Run (dev : StreamDev W D) :
    W × Ext4Directory D → W × Ext4Directory D → Res (Option DirEntry) → Prop where
  | fin (s : W × Ext4Directory D) : (∀ b, s.2.current ≠ .block b) → Run dev s s (.ok none)
  | entry (s : W × Ext4Directory D) (b b' : DirBlock) (e : DirEntry) : s.2.current = .block b →
      b.readNextEntry = .ok (some e, b') → Run dev s (withCurrent s (.block b')) (.ok (some e))
  | bad (s : W × Ext4Directory D) (b : DirBlock) : s.2.current = .block b →
      b.readNextEntry = .panic → Run dev s s .panic
  | next (s s1 s2 : W × Ext4Directory D) (b b' : DirBlock) (r : Res (Option DirEntry)) :
      s.2.current = .block b → b.readNextEntry = .ok (none, b') →
      Advances dev (withCurrent s (.block b')) s1 (.ok ()) → Run dev s1 s2 r → Run dev s s2 r
  | fail (s s1 : W × Ext4Directory D) (b b' : DirBlock) (r : Res Unit) :
      s.2.current = .block b → b.readNextEntry = .ok (none, b') →
      Advances dev (withCurrent s (.block b')) s1 r → r ≠ .ok () → Run dev s s1 (failed r)

omit [Build] in
theorem readNextEntry_no_err (b : DirBlock) (e : ErrKind) : b.readNextEntry ≠ .err e := by
  unfold DirBlock.readNextEntry
  split <;> (intro h; cases h)

theorem loop_fin {fuel n : Nat} {s : W × Ext4Directory D} (h : ∀ b, s.2.current ≠ .block b) :
    loop dev fuel (n + 1) s = (s, .ok (some none)) := by
  rcases hc : s.2.current with _ | b | _
  · show (match s.2.current with | .block b => _ | .start => _ | .end => _ : SM _ _) s = _
    rw [hc]; rfl
  · exact absurd hc (h b)
  · show (match s.2.current with | .block b => _ | .start => _ | .end => _ : SM _ _) s = _
    rw [hc]; rfl

theorem loop_block {fuel n : Nat} {s : W × Ext4Directory D} {b : DirBlock}
    (h : s.2.current = .block b) :
    loop dev fuel (n + 1) s = match b.readNextEntry with
      | .ok (some e, b') => (withCurrent s (.block b'), .ok (some (some e)))
      | .ok (none, b') =>
        match advance dev fuel (withCurrent s (.block b')) with
        | (s1, .ok none) => (s1, .ok none)
        | (s1, .ok (some ())) => loop dev fuel n s1
        | (s1, .err e) => (s1, .err e)
        | (s1, .panic) => (s1, .panic)
      | .err e => (s, .err e)
      | .panic => (s, .panic) := by
  show (match s.2.current with | .block b => _ | .start => _ | .end => _ : SM _ _) s = _
  rw [h]
  show (SM.lift b.readNextEntry >>= _) s = _
  rcases hb : b.readNextEntry with ⟨r | e, b'⟩ | e | _
  · show ((advance dev fuel >>= _) : SM _ _) (withCurrent s (.block b')) = _
    obtain ⟨s1, r1, h1⟩ : ∃ s1 r1, advance dev fuel (withCurrent s (.block b')) = (s1, r1) :=
      ⟨_, _, rfl⟩
    simp only [h1]
    match r1 with
    | .ok none => rw [SM.bind_ok (h := h1)]; rfl
    | .ok (some ()) => rw [SM.bind_ok (h := h1)]
    | .err e => rw [SM.bind_err (h := h1)]
    | .panic => rw [SM.bind_panic (h := h1)]
  · rfl
  · rfl
  · rfl

theorem loop_run {fuel n : Nat} {s s' : W × Ext4Directory D} {r : Res (Option DirEntry)}
    (h : loop dev fuel n s = (s', some <$> r)) : Run dev s s' r := by
  induction n generalizing s with
  | zero =>
    have : ((s, Res.ok none) : (W × Ext4Directory D) × Res (Option (Option DirEntry)))
      = (s', some <$> r) := h
    exact absurd (Prod.mk.inj this).2.symm (some_ne r)
  | succ n ih =>
    by_cases hc : ∃ b, s.2.current = .block b
    · obtain ⟨b, hc⟩ := hc
      rw [loop_block hc] at h
      rcases hb : b.readNextEntry with ⟨_ | e, b'⟩ | e | _
      · simp only [hb] at h
        obtain ⟨s1, r1, h1⟩ : ∃ s1 r1, advance dev fuel (withCurrent s (.block b')) = (s1, r1) :=
          ⟨_, _, rfl⟩
        simp only [h1] at h
        match r1 with
        | .ok none => exact absurd (Prod.mk.inj h).2.symm (some_ne r)
        | .ok (some ()) => exact .next s s1 s' b b' r hc hb ⟨fuel, h1⟩ (ih h)
        | .err e =>
          obtain ⟨rfl, h2⟩ := Prod.mk.inj h
          have : r = .err e := some_inj (r' := .err e) h2.symm
          subst this
          exact .fail s s1 b b' (.err e) hc hb ⟨fuel, h1⟩ (fun h => (by cases h))
        | .panic =>
          obtain ⟨rfl, h2⟩ := Prod.mk.inj h
          have : r = .panic := some_inj (r' := .panic) h2.symm
          subst this
          exact .fail s s1 b b' .panic hc hb ⟨fuel, h1⟩ (fun h => (by cases h))
      · simp only [hb] at h
        obtain ⟨rfl, h2⟩ := Prod.mk.inj h
        have : r = .ok (some e) := some_inj (r' := .ok (some e)) h2.symm
        subst this
        exact .entry s b b' e hc hb
      · exact absurd hb (readNextEntry_no_err b e)
      · simp only [hb] at h
        obtain ⟨rfl, h2⟩ := Prod.mk.inj h
        have : r = .panic := some_inj (r' := .panic) h2.symm
        subst this
        exact .bad s b hc hb
    · have hc : ∀ b, s.2.current ≠ .block b := fun b hb => hc ⟨b, hb⟩
      rw [loop_fin hc] at h
      obtain ⟨rfl, h2⟩ := Prod.mk.inj h
      have : r = .ok none := some_inj (r' := .ok none) h2.symm
      subst this
      exact .fin s hc

theorem run_loop {s s' : W × Ext4Directory D} {r : Res (Option DirEntry)} (h : Run dev s s' r) :
    ∃ k, ∀ fuel n, k ≤ fuel → k ≤ n → loop dev fuel n s = (s', some <$> r) := by
  induction h with
  | fin s h =>
    refine ⟨1, fun fuel n _ hn => ?_⟩
    obtain ⟨m, rfl⟩ : ∃ m, n = m + 1 := ⟨n - 1, by omega⟩
    rw [loop_fin h]; rfl
  | entry s b b' e h1 h2 =>
    refine ⟨1, fun fuel n _ hn => ?_⟩
    obtain ⟨m, rfl⟩ : ∃ m, n = m + 1 := ⟨n - 1, by omega⟩
    rw [loop_block h1, h2]; rfl
  | bad s b h1 h2 =>
    refine ⟨1, fun fuel n _ hn => ?_⟩
    obtain ⟨m, rfl⟩ : ∃ m, n = m + 1 := ⟨n - 1, by omega⟩
    rw [loop_block h1, h2]; rfl
  | next s s1 s2 b b' r h1 h2 h3 _ ih =>
    obtain ⟨k, ih⟩ := ih
    obtain ⟨k', h3⟩ := h3
    refine ⟨k + k' + 1, fun fuel n hf hn => ?_⟩
    obtain ⟨m, rfl⟩ : ∃ m, n = m + 1 := ⟨n - 1, by omega⟩
    have h4 := advance_more h3 (some_ne _) (fuel - k')
    rw [show k' + (fuel - k') = fuel by omega] at h4
    rw [loop_block h1, h2]
    simp only [h4]
    exact ih fuel m (by omega) (by omega)
  | fail s s1 b b' r h1 h2 h3 h4 =>
    obtain ⟨k', h3⟩ := h3
    refine ⟨k' + 1, fun fuel n hf hn => ?_⟩
    obtain ⟨m, rfl⟩ : ∃ m, n = m + 1 := ⟨n - 1, by omega⟩
    have h5 := advance_more h3 (some_ne _) (fuel - k')
    rw [show k' + (fuel - k') = fuel by omega] at h5
    rw [loop_block h1, h2]
    simp only [h5]
    match r with
    | .ok () => exact absurd rfl h4
    | .err e => rfl
    | .panic => rfl

/-- The block is read, and the loop runs. -/
def Next (dev : StreamDev W D) (s s' : W × Ext4Directory D) (r : Res (Option DirEntry)) : Prop :=
  (∃ s1, Advances dev s s1 (.ok ()) ∧ Run dev s1 s' r) ∨
    ∃ r0, Advances dev s s' r0 ∧ r0 ≠ .ok () ∧ r = failed r0

theorem readNextEntry_start {fuel : Nat} {s : W × Ext4Directory D} (h : s.2.current = .start) :
    readNextEntry dev fuel s = match advance dev fuel s with
        | (s1, .ok none) => (s1, .ok none)
        | (s1, .ok (some ())) => loop dev fuel fuel s1
        | (s1, .err e) => (s1, .err e)
        | (s1, .panic) => (s1, .panic) := by
  show (match s.2.current with | .start => _ | .block b => _ | .end => _ : SM _ _) s = _
  rw [h]
  show ((advance dev fuel >>= _) : SM _ _) s = _
  obtain ⟨s1, r1, h1⟩ : ∃ s1 r1, advance dev fuel s = (s1, r1) := ⟨_, _, rfl⟩
  simp only [h1]
  match r1 with
  | .ok none => rw [SM.bind_ok (h := h1)]; rfl
  | .ok (some ()) => rw [SM.bind_ok (h := h1)]
  | .err e => rw [SM.bind_err (h := h1)]
  | .panic => rw [SM.bind_panic (h := h1)]

theorem readNextEntry_other {fuel : Nat} {s : W × Ext4Directory D} (h : s.2.current ≠ .start) :
    readNextEntry dev fuel s = loop dev fuel fuel s := by
  show (match s.2.current with | .start => _ | .block b => _ | .end => _ : SM _ _) s = _
  rcases hc : s.2.current with _ | b | _
  · exact absurd hc h
  · rfl
  · rfl

/-- A call from the start. -/
theorem entryReturns_start {s s' : W × Ext4Directory D} {r : Res (Option DirEntry)}
    (h : s.2.current = .start) : EntryReturns dev s s' r ↔ Next dev s s' r := by
  constructor
  · rintro ⟨fuel, h1⟩
    rw [readNextEntry_start h] at h1
    obtain ⟨s1, r1, h2⟩ : ∃ s1 r1, advance dev fuel s = (s1, r1) := ⟨_, _, rfl⟩
    simp only [h2] at h1
    match r1 with
    | .ok none => exact absurd (Prod.mk.inj h1).2.symm (some_ne r)
    | .ok (some ()) => exact .inl ⟨s1, ⟨fuel, h2⟩, loop_run h1⟩
    | .err e =>
      obtain ⟨rfl, h3⟩ := Prod.mk.inj h1
      exact .inr ⟨.err e, ⟨fuel, h2⟩, fun h => (by cases h), some_inj (r' := .err e) h3.symm⟩
    | .panic =>
      obtain ⟨rfl, h3⟩ := Prod.mk.inj h1
      exact .inr ⟨.panic, ⟨fuel, h2⟩, fun h => (by cases h), some_inj (r' := .panic) h3.symm⟩
  · rintro (⟨s1, ⟨f1, h1⟩, h2⟩ | ⟨r0, ⟨f1, h1⟩, h2, rfl⟩)
    · obtain ⟨k, h2⟩ := run_loop h2
      refine ⟨f1 + k, ?_⟩
      rw [readNextEntry_start h, advance_more h1 (some_ne _) k]
      exact h2 _ _ (by omega) (by omega)
    · refine ⟨f1, ?_⟩
      rw [readNextEntry_start h, h1]
      match r0 with
      | .ok () => exact absurd rfl h2
      | .err e => rfl
      | .panic => rfl

/-- A later call. -/
theorem entryReturns_other {s s' : W × Ext4Directory D} {r : Res (Option DirEntry)}
    (h : s.2.current ≠ .start) : EntryReturns dev s s' r ↔ Run dev s s' r := by
  constructor
  · rintro ⟨fuel, h1⟩
    rw [readNextEntry_other h] at h1
    exact loop_run h1
  · intro h1
    obtain ⟨k, h1⟩ := run_loop h1
    exact ⟨k, by rw [readNextEntry_other h]; exact h1 k k (by omega) (by omega)⟩

end Ext4Directory
end MdRecover
