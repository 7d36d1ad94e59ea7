import Verif.Model.InMemory
import Verif.Model.FileDevice
import Verif.Spec.Device
import Verif.Lemmas.Basic

namespace MdRecover
open MdSpec

namespace InMemory

/-- The disk an in-memory device is: whole blocks of its memory. -/
def IsDisk (d : InMemory) (k : Disk) : Prop :=
  0 < d.blockSize ∧ d.blockSize < U32 ∧ d.mem.length < U64 ∧
    k = ⟨d.blockSize, d.mem.length / d.blockSize,
      d.mem.take (d.mem.length / d.blockSize * d.blockSize)⟩

theorem block_slice {l : Bytes} {n bs b : Nat} (hb : b < n) :
    ((l.take (n * bs)).drop (b * bs)).take bs = slice l (b * bs) bs := by
  have : (b + 1) * bs ≤ n * bs := Nat.mul_le_mul_right _ hb
  rw [Nat.add_mul, Nat.one_mul] at this
  rw [List.drop_take, List.take_take, slice]
  congr 1
  omega

theorem readBlock_in_range {d : InMemory} {b : Nat} {buf : Bytes} (hpos : 0 < d.blockSize)
    (hlen : d.mem.length < U64) (hb : b < d.mem.length / d.blockSize)
    (hbuf : buf.length = d.blockSize) :
    readBlock b buf ((), d) =
      (((), d), .ok (d.blockSize, slice d.mem (b * d.blockSize) d.blockSize)) := by
  have h1 : (b + 1) * d.blockSize ≤ d.mem.length / d.blockSize * d.blockSize :=
    Nat.mul_le_mul_right _ hb
  have h2 := Nat.div_mul_le_self d.mem.length d.blockSize
  rw [Nat.add_mul, Nat.one_mul] at h1
  simp only [readBlock]
  rw [if_neg (by omega), bytePos, checkedMul64_pos (by omega)]
  simp only
  rw [if_neg (by omega), if_neg (by omega), if_neg (by omega)]

theorem devSpec : DevSpec False dev (fun _ => True) IsDisk where
  wf := by
    rintro d k ⟨h1, h2, h3, rfl⟩
    have := Nat.div_mul_le_self d.mem.length d.blockSize
    refine ⟨h1, h2, ?_, ?_⟩
    · rw [List.length_take, Nat.min_eq_left this]
    · simp only; omega
  blockSize := by
    rintro w d k - ⟨h1, h2, h3, rfl⟩
    exact ⟨trivial, .inl rfl⟩
  blockCount := by
    rintro w d k - ⟨h1, h2, h3, rfl⟩
    refine ⟨trivial, .inl ?_⟩
    simp only [dev, SM.lift_apply, divP]
    rw [if_neg (by omega)]
  readBlock := by
    rintro w d k - ⟨h1, h2, h3, rfl⟩ b buf hb hbuf
    have := readBlock_in_range h1 h3 hb hbuf
    change _ ∧ IsDisk (readBlock b buf ((), d)).1.2 _ ∧
      Gives False (readBlock b buf ((), d)).2 _
    rw [this]
    refine ⟨trivial, ⟨h1, h2, h3, rfl⟩, .inl ?_⟩
    rw [← block_slice hb]
  tryClone := by
    rintro w d k - h
    exact ⟨trivial, .inl ⟨d, rfl, h⟩⟩

end InMemory

namespace FileDev

/-- Reads deliver a non-empty prefix of what is left, unless the kernel fails or nothing is left. -/
theorem readRaw_spec (buf : Bytes) (K : Kernel) (d : FileDev) :
    (∃ c K', readRaw buf (K, d) = ((K', d), .err (.os c)) ∧ ReadEvent.fail c ∈ K.schedule ∧
      K'.schedule ⊆ K.schedule) ∨
    (∃ j K', readRaw buf (K, d) =
        ((K', d), .ok (j, slice d.content (K.offset d.ofd) j ++ buf.drop j)) ∧
      j ≤ buf.length ∧ (slice d.content (K.offset d.ofd) j).length = j ∧
      K'.offset d.ofd = K.offset d.ofd + j ∧ K'.schedule ⊆ K.schedule ∧
      (j = 0 → buf = [] ∨ d.content.length ≤ K.offset d.ofd)) := by
  have hdel : ∀ (m : Nat) (hm : 0 < m ∨ buf = []) (K1 : Kernel), K1.offset = K.offset →
      ∃ j K', deliver m buf (K1, d) =
        ((K', d), .ok (j, slice d.content (K.offset d.ofd) j ++ buf.drop j)) ∧
      j ≤ buf.length ∧ (slice d.content (K.offset d.ofd) j).length = j ∧
      K'.offset d.ofd = K.offset d.ofd + j ∧ K'.schedule = K1.schedule ∧
      (j = 0 → buf = [] ∨ d.content.length ≤ K.offset d.ofd) := by
    intro m hm K1 hK1
    have hl : (slice d.content (K.offset d.ofd) (min m buf.length)).length =
        min (min m buf.length) (d.content.length - K.offset d.ofd) := by
      rw [slice, List.length_take, List.length_drop]
    have hs : slice d.content (K.offset d.ofd) (min m buf.length) =
        slice d.content (K.offset d.ofd)
          (min (min m buf.length) (d.content.length - K.offset d.ofd)) := by
      rw [slice, slice, List.take_eq_take_iff, List.length_drop]; omega
    refine ⟨min (min m buf.length) (d.content.length - K.offset d.ofd),
      { K1 with offset := fun i => (if i = d.ofd then K.offset d.ofd +
        min (min m buf.length) (d.content.length - K.offset d.ofd) else K.offset i) },
      ?_, by omega, ?_, ?_, ?_, ?_⟩
    · simp only [deliver, hK1, hl, overwrite]
      rw [← hs]
    · rw [slice, List.length_take, List.length_drop]; omega
    · simp
    · simp
    · intro h0
      rcases hm with hm | hm
      · by_cases hb : buf = []
        · exact .inl hb
        · right
          have := List.length_pos_iff.mpr hb
          omega
      · exact .inl hm
  unfold readRaw
  cases hsch : K.schedule with
  | nil =>
    right
    simp only
    obtain ⟨j, K', h1, h2, h3, h4, h5, h6⟩ := hdel buf.length
      (by rcases buf with _ | ⟨a, l⟩ <;> simp) K rfl
    exact ⟨j, K', h1, h2, h3, h4, by rw [h5, hsch]; exact fun _ h => h, h6⟩
  | cons e rest =>
    cases e with
    | fail c =>
      left
      simp only
      exact ⟨c, { K with schedule := rest }, rfl, by simp, by simp⟩
    | upTo n =>
      right
      simp only
      obtain ⟨j, K', h1, h2, h3, h4, h5, h6⟩ := hdel (n + 1) (.inl (by omega))
        { K with schedule := rest } rfl
      exact ⟨j, K', h1, h2, h3, h4, by rw [h5]; simp, h6⟩

theorem readExactRaw_spec : ∀ (fuel : Nat) (buf : Bytes) (K : Kernel) (d : FileDev),
    buf.length ≤ fuel →
    ∃ K', K'.schedule ⊆ K.schedule ∧
      ((∃ c, readExactLoop readRaw fuel buf (K, d) = ((K', d), .err (.os c)) ∧
          ReadEvent.fail c ∈ K.schedule) ∨
       (d.content.length < K.offset d.ofd + buf.length ∧ buf ≠ [] ∧
          readExactLoop readRaw fuel buf (K, d) = ((K', d), .err .unexpectedEof)) ∨
       ((buf = [] ∨ K.offset d.ofd + buf.length ≤ d.content.length) ∧
          readExactLoop readRaw fuel buf (K, d) =
            ((K', d), .ok (slice d.content (K.offset d.ofd) buf.length))))
  | 0, buf, K, d, hf => by
    have : buf = [] := List.eq_nil_of_length_eq_zero (by omega)
    subst this
    exact ⟨K, fun _ h => h, .inr (.inr ⟨.inl rfl, by simp [readExactLoop, slice]⟩)⟩
  | fuel + 1, buf, K, d, hf => by
    rw [readExactLoop]
    by_cases hb : buf = []
    · subst hb
      exact ⟨K, fun _ h => h, .inr (.inr ⟨.inl rfl, by simp [slice]⟩)⟩
    rw [if_neg hb]
    have hblen : 0 < buf.length := List.length_pos_iff.mpr hb
    rcases readRaw_spec buf K d with ⟨c, K1, h, hc, hsub⟩ | ⟨j, K1, h, hle, hsl, hoff, hsub, h0⟩
    · exact ⟨K1, hsub, .inl ⟨c, SM.bind_err (h := h) _, hc⟩⟩
    rw [SM.bind_ok (h := h)]
    simp only
    by_cases hj : j = 0
    · rw [if_pos hj]
      have := (h0 hj).resolve_left hb
      exact ⟨K1, hsub, .inr (.inl ⟨by omega, hb, rfl⟩)⟩
    rw [if_neg hj]
    rw [if_neg (by rw [List.length_append, hsl]; omega)]
    have hin : K.offset d.ofd + j ≤ d.content.length := by
      rw [slice, List.length_take, List.length_drop] at hsl; omega
    have hdrop : (slice d.content (K.offset d.ofd) j ++ buf.drop j).drop j = buf.drop j := by
      rw [List.drop_append, hsl, List.drop_eq_nil_of_le (by omega)]; simp
    have htake : (slice d.content (K.offset d.ofd) j ++ buf.drop j).take j =
        slice d.content (K.offset d.ofd) j := by
      rw [List.take_append, hsl, List.take_of_length_le (by omega)]; simp
    rw [hdrop, htake]
    have hdl : (buf.drop j).length = buf.length - j := List.length_drop
    obtain ⟨K2, hsub2, h2⟩ := readExactRaw_spec fuel (buf.drop j) K1 d (by omega)
    refine ⟨K2, fun x hx => hsub (hsub2 hx), ?_⟩
    rcases h2 with ⟨c, h2, hc⟩ | ⟨hlt, hne, h2⟩ | ⟨hok, h2⟩
    · exact .inl ⟨c, SM.bind_err (h := h2) _, hsub hc⟩
    · exact .inr (.inl ⟨by omega, hb, SM.bind_err (h := h2) _⟩)
    · refine .inr (.inr ⟨.inr ?_, ?_⟩)
      · rcases hok with h0 | hok
        · have := congrArg List.length h0
          rw [hdl] at this
          simp at this
          omega
        · omega
      · rw [SM.bind_ok (h := h2), SM.pure_apply, hoff, hdl]
        simp only [slice]
        rw [← List.drop_drop, ← List.take_add]
        congr 4; omega

/-- The block read through a file handle, in every kernel state. -/
theorem readBlock_spec (K : Kernel) (d : FileDev) (b : Nat) (buf : Bytes)
    (hfit : b * d.blockSize < U64) (hbuf : d.blockSize ≤ buf.length) :
    ∃ K', K'.schedule ⊆ K.schedule ∧
      ((∃ c, readBlock b buf (K, d) = ((K', d), .err (.os c)) ∧
          ReadEvent.fail c ∈ K.schedule) ∨
       (d.content.length < b * d.blockSize + d.blockSize ∧ 0 < d.blockSize ∧
          (readBlock b buf (K, d) = ((K', d), .err .unexpectedEof) ∨
            readBlock b buf (K, d) = ((K', d), .err .invalidInput))) ∨
       ((d.blockSize = 0 ∨ b * d.blockSize + d.blockSize ≤ d.content.length) ∧
          readBlock b buf (K, d) =
            ((K', d), .ok (d.blockSize,
              overwrite buf (slice d.content (b * d.blockSize) d.blockSize))))) := by
  unfold readBlock
  rw [SM.bind_ok (h := SM.get_apply _)]
  simp only
  rw [if_neg (by omega)]
  rw [SM.bind_ok (a := b * d.blockSize) (s' := (K, d))
    (h := by rw [bytePos, checkedMul64_pos hfit]; rfl)]
  by_cases hfar : d.content.length + K.beyond d.ofd < b * d.blockSize
  · have hseek : seekRaw (.start (b * d.blockSize)) (K, d) = ((K, d), .err .invalidInput) := by
      simp only [seekRaw]
      rw [if_pos (by omega)]
    rw [SM.bind_err (h := hseek)]
    refine ⟨K, fun _ h => h, ?_⟩
    rcases Nat.eq_zero_or_pos d.blockSize with h0 | h0
    · rw [h0] at hfar; omega
    · exact .inr (.inl ⟨by omega, h0, .inr rfl⟩)
  have hseek : seekRaw (.start (b * d.blockSize)) (K, d) =
      (({ K with offset := fun i => if i = d.ofd then b * d.blockSize else K.offset i }, d),
        .ok (b * d.blockSize)) := by
    simp only [seekRaw]
    rw [if_neg (by omega)]
    simp only [Int.toNat_natCast]
  rw [SM.bind_ok (h := hseek)]
  have htl : (buf.take d.blockSize).length = d.blockSize := by
    rw [List.length_take]; omega
  obtain ⟨K2, hsub2, h2⟩ := readExactRaw_spec (buf.take d.blockSize).length (buf.take d.blockSize)
    { K with offset := fun i => if i = d.ofd then b * d.blockSize else K.offset i } d
    (Nat.le_refl _)
  have h00 : buf.take d.blockSize = [] ↔ d.blockSize = 0 := by
    constructor
    · intro h; rw [← htl, h]; rfl
    · intro h; rw [h]; rfl
  refine ⟨K2, hsub2, ?_⟩
  rcases h2 with ⟨c, h2, hc⟩ | ⟨hlt, hne, h2⟩ | ⟨hok, h2⟩
  · exact .inl ⟨c, SM.bind_err (h := h2) _, hc⟩
  · refine .inr (.inl ⟨?_, ?_, .inl (SM.bind_err (h := h2) _)⟩)
    · simp only [if_true, htl] at hlt; exact hlt
    · rcases Nat.eq_zero_or_pos d.blockSize with h | h
      · exact absurd (h00.mpr h) hne
      · exact h
  · refine .inr (.inr ⟨?_, ?_⟩)
    · simp only [if_true, htl, h00] at hok; exact hok
    · have := SM.bind_ok (h := h2)
        (f := fun block => (pure (d.blockSize, overwrite buf block) : SM _ _))
      simp only [if_true, htl] at this
      rw [readExact, htl]
      exact this

/-- A block read only uses up the schedule. -/
theorem readBlock_schedule (K : Kernel) (d : FileDev) (b : Nat) (buf : Bytes) :
    (readBlock b buf (K, d)).1.1.schedule ⊆ K.schedule := by
  by_cases hbuf : buf.length < d.blockSize
  · unfold readBlock
    rw [SM.bind_ok (h := SM.get_apply _)]
    simp only
    rw [if_pos hbuf]
    exact fun _ h => h
  by_cases hfit : b * d.blockSize < U64
  · obtain ⟨K', hsub, h⟩ := readBlock_spec K d b buf hfit (by omega)
    rcases h with ⟨c, h, _⟩ | ⟨_, _, h | h⟩ | ⟨_, h⟩ <;> rw [h] <;> exact hsub
  · unfold readBlock
    rw [SM.bind_ok (h := SM.get_apply _)]
    simp only
    rw [if_neg hbuf, SM.bind_err (e := .invalidData) (s' := (K, d))
      (h := by rw [bytePos, checkedMul64_neg (by omega)]; rfl)]
    exact fun _ h => h

/-- The disk a file handle is. -/
def IsDisk (d : FileDev) (k : Disk) : Prop :=
  0 < d.blockSize ∧ d.blockSize < U32 ∧ d.content.length < U64 ∧
    k = ⟨d.blockSize, d.content.length / d.blockSize,
      d.content.take (d.content.length / d.blockSize * d.blockSize)⟩

/-- No `read` call will fail. -/
def NoFailures (K : Kernel) : Prop := ∀ c, ReadEvent.fail c ∉ K.schedule

theorem devSpec_aux (F : Prop) (G : Kernel → Prop)
    (hG : ∀ K K' : Kernel, G K → K'.schedule ⊆ K.schedule → G K')
    (hF : ∀ K c, G K → ReadEvent.fail c ∈ K.schedule → F) : DevSpec F dev G IsDisk where
  wf := by
    rintro d k ⟨h1, h2, h3, rfl⟩
    have := Nat.div_mul_le_self d.content.length d.blockSize
    refine ⟨h1, h2, ?_, ?_⟩
    · rw [List.length_take, Nat.min_eq_left this]
    · simp only; omega
  blockSize := by
    rintro w d k hw ⟨h1, h2, h3, rfl⟩
    exact ⟨hw, .inl rfl⟩
  blockCount := by
    rintro w d k hw ⟨h1, h2, h3, rfl⟩
    refine ⟨hw, .inl ?_⟩
    simp only [dev, SM.lift_apply, divP]
    rw [if_neg (by omega)]
  readBlock := by
    rintro w d k hw ⟨h1, h2, h3, rfl⟩ b buf hb hbuf
    simp only at hb hbuf
    have h4 : (b + 1) * d.blockSize ≤ d.content.length / d.blockSize * d.blockSize :=
      Nat.mul_le_mul_right _ hb
    have h5 := Nat.div_mul_le_self d.content.length d.blockSize
    rw [Nat.add_mul, Nat.one_mul] at h4
    obtain ⟨K', hsub, h⟩ := readBlock_spec w d b buf (by omega) (by omega)
    change G (readBlock b buf (w, d)).1.1 ∧ IsDisk (readBlock b buf (w, d)).1.2 _ ∧
      Gives F (readBlock b buf (w, d)).2 _
    rcases h with ⟨c, h, hc⟩ | ⟨hlt, _, h⟩ | ⟨_, h⟩
    · rw [h]
      exact ⟨hG _ _ hw hsub, ⟨h1, h2, h3, rfl⟩, .inr ⟨hF _ _ hw hc, _, rfl⟩⟩
    · omega
    · rw [h]
      refine ⟨hG _ _ hw hsub, ⟨h1, h2, h3, rfl⟩, .inl ?_⟩
      rw [InMemory.block_slice hb]
      congr 2
      have : (slice d.content (b * d.blockSize) d.blockSize).length = d.blockSize := by
        rw [slice, List.length_take, List.length_drop]; omega
      rw [overwrite, List.drop_eq_nil_of_le (by omega), List.append_nil]
  tryClone := by
    rintro w d k hw h
    exact ⟨hw, .inl ⟨d, rfl, h⟩⟩

/-- With any kernel schedule a file-backed device is an honest disk that may fail. -/
theorem devSpec_honest : DevSpec True dev (fun _ => True) IsDisk :=
  devSpec_aux True _ (fun _ _ _ _ => trivial) (fun _ _ _ _ => trivial)

/-- Without kernel failures it never fails, whatever short reads occur. -/
theorem devSpec_reliable : DevSpec False dev NoFailures IsDisk :=
  devSpec_aux False _ (fun _ _ h hs c hc => h c (hs hc)) (fun _ c h hc => h c hc)

end FileDev
end MdRecover
