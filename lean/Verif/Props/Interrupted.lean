import Verif.Model.Interrupted
import Verif.Model.InMemory

/-! C94: interruptions by signals. -/

namespace MdRecover

/-- The kernel if no read were interrupted: the same in all else. -/
def Kernel.undisturbed (K : Kernel) : Kernel :=
  { K with schedule := K.schedule.filter fun e => match e with | .fail c => c ≠ 4 | .upTo _ => true }

/-- The result of a loop that has ended. -/
def Res.ended {α : Type} : Res α → Res (Option α)
  | .ok a => .ok (some a)
  | .err e => .err e
  | .panic => .panic

namespace FileDev

theorem undisturbed_interruption (K : Kernel) (rest : List ReadEvent) (h : K.schedule = .fail 4 :: rest) :
    K.undisturbed = Kernel.undisturbed { K with schedule := rest } := by
  simp [Kernel.undisturbed, h]

/-- A read, with and without interruptions. -/
theorem readRaw_undisturbed (K : Kernel) (d : FileDev) (buf : Bytes) :
    (∃ rest, K.schedule = .fail 4 :: rest ∧
      readRaw buf (K, d) = (({ K with schedule := rest }, d), .err (.os 4))) ∨
    (∃ K', (readRaw buf (K, d)).1 = (K', d) ∧ K'.schedule.length ≤ K.schedule.length ∧
      (readRaw buf (K, d)).2 ≠ .err (.os 4) ∧
      readRaw buf (K.undisturbed, d) = ((K'.undisturbed, d), (readRaw buf (K, d)).2)) := by
  match hs : K.schedule with
  | [] =>
    refine .inr ⟨(readRaw buf (K, d)).1.1, ?_, ?_, ?_, ?_⟩ <;>
      simp [readRaw, hs, Kernel.undisturbed, deliver]
  | .upTo n :: rest =>
    refine .inr ⟨(readRaw buf (K, d)).1.1, ?_, ?_, ?_, ?_⟩ <;>
      simp [readRaw, hs, Kernel.undisturbed, deliver]
  | .fail c :: rest =>
    by_cases hc : c = 4
    · subst hc
      exact .inl ⟨rest, rfl, by simp [readRaw, hs]⟩
    · refine .inr ⟨(readRaw buf (K, d)).1.1, ?_, ?_, ?_, ?_⟩ <;>
        simp [readRaw, hs, Kernel.undisturbed, hc]

theorem readRaw_length {K : Kernel} {d : FileDev} {buf buf' : Bytes} {n : Nat} {s : Kernel × FileDev}
    (h : readRaw buf (K, d) = (s, .ok (n, buf'))) : buf'.length = buf.length := by
  have key (k : Nat) (t : Kernel × FileDev) (h : deliver k buf t = (s, .ok (n, buf'))) :
      buf'.length = buf.length := by
    simp only [deliver, Prod.mk.injEq, Res.ok.injEq] at h
    rw [← h.2.2]
    simp [overwrite, slice]
    omega
  unfold readRaw at h
  split at h
  · exact key _ _ h
  · exact key _ _ h
  · simp at h

theorem readExactRetry_succ {S : Type} (read : Bytes → SM S (Nat × Bytes)) (fuel : Nat) {buf : Bytes}
    (hb : buf ≠ []) (s : S) : readExactRetry read (fuel + 1) buf s =
      match read buf s with
      | (s', .ok (n, buf')) =>
        if n = 0 then (s', .err .unexpectedEof)
        else if buf'.length < n then (s', .panic)
        else (do
          let rest ← readExactRetry read fuel (buf'.drop n)
          pure (rest.map fun r => buf'.take n ++ r) : SM S (Option Bytes)) s'
      | (s', .err e) => if e = .os eintr then readExactRetry read fuel buf s' else (s', .err e)
      | (s', .panic) => (s', .panic) := by
  rw [readExactRetry]
  exact if_neg hb

theorem readExactRetry_undisturbed (fuel : Nat) : ∀ (m : Nat) (K : Kernel) (d : FileDev) (buf : Bytes),
    buf.length + K.schedule.length ≤ fuel → buf.length ≤ m →
    ∃ K', readExactRetry readRaw fuel buf (K, d) =
        ((K', d), (readExactLoop readRaw m buf (K.undisturbed, d)).2.ended) ∧
      (readExactLoop readRaw m buf (K.undisturbed, d)).1 = (K'.undisturbed, d) := by
  induction fuel with
  | zero =>
    intro m K d buf h _
    have : buf = [] := List.eq_nil_of_length_eq_zero (by omega)
    subst this
    cases m <;> exact ⟨K, rfl, rfl⟩
  | succ fuel ih =>
    intro m K d buf h hm
    by_cases hb : buf = []
    · subst hb
      cases m <;> exact ⟨K, rfl, rfl⟩
    · have hpos : 0 < buf.length := List.length_pos_iff.2 hb
      obtain ⟨m, rfl⟩ : ∃ k, m = k + 1 := ⟨m - 1, by omega⟩
      rcases readRaw_undisturbed K d buf with ⟨rest, hr, he⟩ | ⟨K', h1, h2, h3, h4⟩
      · obtain ⟨K2, g1, g2⟩ := ih (m + 1) { K with schedule := rest } d buf
          (by rw [hr] at h; simp only [List.length_cons] at h; simp only; omega) hm
        refine ⟨K2, ?_, ?_⟩
        · rw [readExactRetry_succ _ _ hb, he, undisturbed_interruption K rest hr, ← g1]
          rfl
        · rw [undisturbed_interruption K rest hr]
          exact g2
      · rcases hq : readRaw buf (K, d) with ⟨s', q⟩
        rw [hq] at h1 h3 h4
        simp only at h1 h3 h4
        subst h1
        rw [readExactRetry_succ _ _ hb, readExactLoop, if_neg hb, hq]
        cases q with
        | err e =>
          rw [SM.bind_err _ h4]
          have he : e ≠ .os 4 := fun hc => h3 (by rw [hc])
          exact ⟨K', if_neg he, rfl⟩
        | panic =>
          rw [SM.bind_panic _ h4]
          exact ⟨K', rfl, rfl⟩
        | ok a =>
          obtain ⟨n, buf'⟩ := a
          rw [SM.bind_ok _ h4]
          simp only
          by_cases hn : n = 0
          · rw [if_pos hn, if_pos hn]
            exact ⟨K', rfl, rfl⟩
          · rw [if_neg hn, if_neg hn]
            by_cases hl : buf'.length < n
            · rw [if_pos hl, if_pos hl]
              exact ⟨K', rfl, rfl⟩
            · rw [if_neg hl, if_neg hl]
              have hlen : buf'.length = buf.length := readRaw_length hq
              obtain ⟨K2, g1, g2⟩ := ih m K' d (buf'.drop n) (by rw [List.length_drop]; omega)
                (by rw [List.length_drop]; omega)
              rcases hg : readExactLoop readRaw m (buf'.drop n) (K'.undisturbed, d) with ⟨t, q⟩
              rw [hg] at g1 g2
              simp only at g1 g2
              subst g2
              cases q with
              | ok r => exact ⟨K2, by rw [SM.bind_ok _ g1, SM.bind_ok _ hg]; rfl, by rw [SM.bind_ok _ hg]; rfl⟩
              | err e => exact ⟨K2, by rw [SM.bind_err _ g1, SM.bind_err _ hg]; rfl, by rw [SM.bind_err _ hg]⟩
              | panic => exact ⟨K2, by rw [SM.bind_panic _ g1, SM.bind_panic _ hg]; rfl, by rw [SM.bind_panic _ hg]⟩

theorem readToEndRetry_succ {S : Type} (read : Bytes → SM S (Nat × Bytes)) (sizes : Nat → Nat) (fuel i : Nat)
    (acc : Bytes) (s : S) : readToEndRetry read sizes (fuel + 1) i acc s =
      match read (zeros (sizes i)) s with
      | (s', .ok (n, buf)) =>
        if n = 0 then (s', .ok (some acc))
        else if buf.length < n then (s', .panic)
        else readToEndRetry read sizes fuel (i + 1) (acc ++ buf.take n) s'
      | (s', .err e) => if e = .os eintr then readToEndRetry read sizes fuel i acc s' else (s', .err e)
      | (s', .panic) => (s', .panic) := by
  rw [readToEndRetry]
  rfl

theorem readToEndRetry_undisturbed (sizes : Nat → Nat) (fuel : Nat) :
    ∀ (m i : Nat) (acc : Bytes) (K : Kernel) (d : FileDev), m + K.schedule.length ≤ fuel →
    (readToEnd readRaw sizes m i acc (K.undisturbed, d)).2 ≠ .ok none →
    ∃ K', readToEndRetry readRaw sizes fuel i acc (K, d) =
        ((K', d), (readToEnd readRaw sizes m i acc (K.undisturbed, d)).2) ∧
      (readToEnd readRaw sizes m i acc (K.undisturbed, d)).1 = (K'.undisturbed, d) := by
  induction fuel with
  | zero =>
    intro m i acc K d h hne
    obtain rfl : m = 0 := by omega
    exact absurd rfl hne
  | succ fuel ih =>
    intro m i acc K d h hne
    match m with
    | 0 => exact absurd rfl hne
    | m + 1 =>
      rcases readRaw_undisturbed K d (zeros (sizes i)) with ⟨rest, hr, he⟩ | ⟨K', h1, h2, h3, h4⟩
      · rw [undisturbed_interruption K rest hr] at hne ⊢
        obtain ⟨K2, g1, g2⟩ := ih (m + 1) i acc { K with schedule := rest } d
          (by rw [hr] at h; simp only [List.length_cons] at h; simp only; omega) hne
        refine ⟨K2, ?_, g2⟩
        rw [readToEndRetry_succ, he, ← g1]
        rfl
      · rcases hq : readRaw (zeros (sizes i)) (K, d) with ⟨s', q⟩
        rw [hq] at h1 h3 h4
        simp only at h1 h3 h4
        subst h1
        rw [readToEnd] at hne ⊢
        rw [readToEndRetry_succ, hq]
        cases q with
        | err e =>
          rw [SM.bind_err _ h4]
          have he : e ≠ .os 4 := fun hc => h3 (by rw [hc])
          exact ⟨K', if_neg he, rfl⟩
        | panic =>
          rw [SM.bind_panic _ h4]
          exact ⟨K', rfl, rfl⟩
        | ok a =>
          obtain ⟨n, buf'⟩ := a
          rw [SM.bind_ok _ h4] at hne ⊢
          simp only at hne ⊢
          by_cases hn : n = 0
          · rw [if_pos hn, if_pos hn]
            exact ⟨K', rfl, rfl⟩
          · rw [if_neg hn] at hne ⊢
            rw [if_neg hn]
            by_cases hl : buf'.length < n
            · rw [if_pos hl, if_pos hl]
              exact ⟨K', rfl, rfl⟩
            · rw [if_neg hl] at hne ⊢
              rw [if_neg hl]
              exact ih m (i + 1) _ K' d (by omega) hne

/-- C94: `read_exact` on a file.  If reads are interrupted by signals, anywhere and any number of times, the
result is the same, and so is the position of the file, as if they were not interrupted. -/
theorem C94_read_exact (K : Kernel) (d : FileDev) (buf : Bytes) {fuel : Nat}
    (h : buf.length + K.schedule.length ≤ fuel) :
    ∃ K', readExactRetry readRaw fuel buf (K, d) =
        ((K', d), (readExact readRaw buf (K.undisturbed, d)).2.ended) ∧
      (readExact readRaw buf (K.undisturbed, d)).1 = (K'.undisturbed, d) :=
  readExactRetry_undisturbed fuel buf.length K d buf h (Nat.le_refl _)

/-- C94: reading a block of a file. -/
theorem C94_read_block (K : Kernel) (d : FileDev) (blockNumber : Nat) (buf : Bytes) {fuel : Nat}
    (h : buf.length + K.schedule.length ≤ fuel) :
    ∃ K', readBlockRetry fuel blockNumber buf (K, d) =
        ((K', d), (dev.readBlock blockNumber buf (K.undisturbed, d)).2.ended) ∧
      (dev.readBlock blockNumber buf (K.undisturbed, d)).1 = (K'.undisturbed, d) := by
  show ∃ K', readBlockRetry fuel blockNumber buf (K, d) =
        ((K', d), (readBlock blockNumber buf (K.undisturbed, d)).2.ended) ∧
      (readBlock blockNumber buf (K.undisturbed, d)).1 = (K'.undisturbed, d)
  unfold readBlockRetry readBlock
  rw [SM.bind_ok _ (SM.get_apply (K, d)), SM.bind_ok _ (SM.get_apply (K.undisturbed, d))]
  simp only
  by_cases hl : buf.length < d.blockSize
  · rw [if_pos hl, if_pos hl]
    exact ⟨K, rfl, rfl⟩
  rw [if_neg hl, if_neg hl]
  cases hp : bytePos blockNumber d.blockSize with
  | none => exact ⟨K, rfl, rfl⟩
  | some p =>
    simp only [Res.ofOption]
    rw [SM.bind_ok _ (SM.lift_apply (.ok p) (K, d)), SM.bind_ok _ (SM.lift_apply (.ok p) (K.undisturbed, d))]
    by_cases hc : ((p : Int) < 0 ∨ ((d.content.length + K.beyond d.ofd : Nat) : Int) < p)
    · have h1 : seekRaw (.start p) (K, d) = ((K, d), .err .invalidInput) := if_pos hc
      have h2 : seekRaw (.start p) (K.undisturbed, d) = ((K.undisturbed, d), .err .invalidInput) := if_pos hc
      rw [SM.bind_err _ h1, SM.bind_err _ h2]
      exact ⟨K, rfl, rfl⟩
    · let K1 : Kernel := { K with offset := fun i => if i = d.ofd then ((p : Int)).toNat else K.offset i }
      have h1 : seekRaw (.start p) (K, d) = ((K1, d), .ok _) := if_neg hc
      have h2 : seekRaw (.start p) (K.undisturbed, d) = ((K1.undisturbed, d), .ok _) := if_neg hc
      rw [SM.bind_ok _ h1, SM.bind_ok _ h2]
      obtain ⟨K2, g1, g2⟩ := C94_read_exact K1 d (buf.take d.blockSize) (fuel := fuel)
        (by rw [List.length_take]; show _ + K.schedule.length ≤ _; omega)
      rcases hg : readExact readRaw (buf.take d.blockSize) (K1.undisturbed, d) with ⟨t, q⟩
      rw [hg] at g1 g2
      simp only at g1 g2
      subst g2
      cases q with
      | ok r => exact ⟨K2, by rw [SM.bind_ok _ g1, SM.bind_ok _ hg]; rfl, by rw [SM.bind_ok _ hg]; rfl⟩
      | err e => exact ⟨K2, by rw [SM.bind_err _ g1, SM.bind_err _ hg]; rfl, by rw [SM.bind_err _ hg]⟩
      | panic => exact ⟨K2, by rw [SM.bind_panic _ g1, SM.bind_panic _ hg]; rfl, by rw [SM.bind_panic _ hg]⟩

/-- C94: reading a file to its end. -/
theorem C94_read_all (sizes : Nat → Nat) (K : Kernel) (d : FileDev) {m fuel : Nat}
    (h : m + K.schedule.length ≤ fuel) (hend : (readAll readRaw sizes m (K.undisturbed, d)).2 ≠ .ok none) :
    ∃ K', readToEndRetry readRaw sizes fuel 0 [] (K, d) =
        ((K', d), (readAll readRaw sizes m (K.undisturbed, d)).2) ∧
      (readAll readRaw sizes m (K.undisturbed, d)).1 = (K'.undisturbed, d) :=
  readToEndRetry_undisturbed sizes fuel m 0 [] K d h hend

/-- C94, a case: two interruptions and a short read; then a failure that is not an interruption. -/
theorem C94_case :
    (readBlockRetry 9 1 [0, 0] (⟨fun _ => 0, [.fail 4, .upTo 0, .fail 4], fun _ => 0⟩, ⟨3, [1, 2, 3, 4], 2⟩)).2 =
      .ok (some (2, [3, 4])) ∧
    (readBlockRetry 9 1 [0, 0] (⟨fun _ => 0, [.fail 4, .fail 5], fun _ => 0⟩, ⟨3, [1, 2, 3, 4], 2⟩)).2 =
      .err (.os 5) ∧
    (readToEndRetry readRaw (fun _ => 3) 9 0 []
      (⟨fun _ => 0, [.fail 4, .upTo 0, .fail 4], fun _ => 0⟩, ⟨3, [1, 2, 3, 4], 2⟩)).2 =
      .ok (some [1, 2, 3, 4]) := by decide +kernel

end FileDev

/-- C94: on devices that never answer that they were interrupted, `read_exact` is the loop without
repetitions. -/
theorem C94_no_interruptions {S : Type} (read : Bytes → SM S (Nat × Bytes))
    (hread : ∀ buf s, (read buf s).2 ≠ .err (.os 4))
    (hlen : ∀ buf s s' n buf', read buf s = (s', .ok (n, buf')) → buf'.length = buf.length)
    (fuel : Nat) (buf : Bytes) (s : S) (h : buf.length ≤ fuel) :
    readExactRetry read fuel buf s =
      ((readExactLoop read fuel buf s).1, (readExactLoop read fuel buf s).2.ended) := by
  induction fuel generalizing buf s with
  | zero =>
    have : buf = [] := List.eq_nil_of_length_eq_zero (by omega)
    subst this
    rfl
  | succ fuel ih =>
    by_cases hb : buf = []
    · subst hb
      rfl
    · rw [FileDev.readExactRetry_succ _ _ hb, readExactLoop, if_neg hb]
      rcases hq : read buf s with ⟨s', q⟩
      have hr := hread buf s
      rw [hq] at hr
      cases q with
      | err e =>
        rw [SM.bind_err _ hq]
        have he : e ≠ .os 4 := fun hc => hr (by rw [hc])
        exact if_neg he
      | panic =>
        rw [SM.bind_panic _ hq]
        rfl
      | ok a =>
        obtain ⟨n, buf'⟩ := a
        rw [SM.bind_ok _ hq]
        simp only
        have := hlen _ _ _ _ _ hq
        by_cases hn : n = 0
        · rw [if_pos hn, if_pos hn]
          rfl
        · rw [if_neg hn, if_neg hn]
          by_cases hl : buf'.length < n
          · rw [if_pos hl, if_pos hl]
            rfl
          · rw [if_neg hl, if_neg hl]
            have g := ih (buf'.drop n) s' (by rw [List.length_drop]; omega)
            rcases hg : readExactLoop read fuel (buf'.drop n) s' with ⟨t, q⟩
            rw [hg] at g
            cases q with
            | ok r => rw [SM.bind_ok _ g, SM.bind_ok _ hg]; rfl
            | err e => rw [SM.bind_err _ g, SM.bind_err _ hg]; rfl
            | panic => rw [SM.bind_panic _ g, SM.bind_panic _ hg]; rfl

/-- C94, a case: reading three bytes of an in-memory device. -/
example (d : InMemory) :
    readExactRetry InMemory.read 3 [0, 0, 0] d =
      ((readExactLoop InMemory.read 3 [0, 0, 0] d).1, (readExactLoop InMemory.read 3 [0, 0, 0] d).2.ended) := by
  refine C94_no_interruptions InMemory.read ?_ ?_ 3 _ d (Nat.le_refl _)
  · intro buf s
    unfold InMemory.read
    split <;> simp
  · intro buf s s' n buf' h
    unfold InMemory.read at h
    split at h
    · cases h
    · simp only [Prod.mk.injEq, Res.ok.injEq] at h
      rw [← h.2.2]
      have hs : (slice s.mem s.pos (min buf.length (s.mem.length - s.pos))).length ≤ buf.length := by
        simp only [slice, List.length_take, List.length_drop]
        omega
      simp only [overwrite, List.length_append, List.length_drop]
      omega

end MdRecover
