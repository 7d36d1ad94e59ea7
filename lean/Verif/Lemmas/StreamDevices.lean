import Verif.Lemmas.Devices
import Verif.Spec.StreamDevice

namespace MdRecover
open MdSpec

namespace InMemory

/-- The disk and the tail (bytes after the last whole block) of an in-memory device. -/
def IsStream (d : InMemory) (k : Disk) (t : Bytes) : Prop := IsDisk d k ∧ d.mem = k.content ++ t

theorem isStream_of (d : InMemory) (h0 : 0 < d.blockSize) (h1 : d.blockSize < U32)
    (h2 : d.mem.length < U64) :
    IsStream d ⟨d.blockSize, d.mem.length / d.blockSize,
        d.mem.take (d.mem.length / d.blockSize * d.blockSize)⟩
      (d.mem.drop (d.mem.length / d.blockSize * d.blockSize)) :=
  ⟨⟨h0, h1, h2, rfl⟩, (List.take_append_drop _ _).symm⟩

theorem streamDevSpec : StreamDevSpec False streamDev (fun _ => True) IsStream
    (fun _ d p => d.pos = p ∧ p ≤ d.mem.length) where
  toDev := by
    have h := devSpec
    refine ⟨fun {d k} ⟨t, hI, _⟩ => h.wf hI, fun {w d k} hG ⟨t, hI, _⟩ => h.blockSize hG hI,
      fun {w d k} hG ⟨t, hI, _⟩ => h.blockCount hG hI, ?_, ?_⟩
    · rintro w d k hG ⟨t, hI, hm⟩ b buf hb hbuf
      obtain ⟨h1, h2, h3⟩ := h.readBlock hG hI b buf hb hbuf
      refine ⟨h1, ⟨t, h2, ?_⟩, h3⟩
      exact hm
    · rintro w d k hG ⟨t, hI, hm⟩
      exact ⟨trivial, .inl ⟨d, rfl, t, hI, hm⟩⟩
  seek := by
    rintro w d k t - ⟨hI, hm⟩ p hp w' d' r h
    simp only [streamDev, SM.zoom, seek] at h
    have hl : d.mem.length = k.content.length + t.length := by rw [hm, List.length_append]
    have hmin : min p d.mem.length = p := by omega
    rw [hmin] at h
    cases h
    exact ⟨trivial, ⟨hI, hm⟩, .inl ⟨rfl, rfl, by simp only; omega⟩⟩
  read := by
    rintro w d k t p - ⟨hI, hm⟩ ⟨rfl, hp⟩ buf w' d' r h
    simp only [streamDev, SM.zoom, read] at h
    rw [if_neg (by omega)] at h
    cases h
    refine ⟨trivial, ⟨hI, hm⟩, .inl ⟨_, _, _, rfl, ⟨?_, rfl, ?_, ?_, ?_⟩, rfl, ?_⟩⟩
    · exact Nat.min_le_left _ _
    · rw [← hm]
      simp only [overwrite, slice]
      congr 2
      rw [List.length_take, List.length_drop]; omega
    · rw [← hm]; omega
    · intro h0
      rw [← hm]
      rcases buf with _ | ⟨a, b⟩
      · exact .inl rfl
      · right
        simp only [List.length_cons] at h0
        omega
    · simp only; omega

end InMemory

namespace FileDev

/-- The disk and the tail of a file handle. -/
def IsStream (d : FileDev) (k : Disk) (t : Bytes) : Prop := IsDisk d k ∧ d.content = k.content ++ t

theorem isStream_of (d : FileDev) (h0 : 0 < d.blockSize) (h1 : d.blockSize < U32)
    (h2 : d.content.length < U64) :
    IsStream d ⟨d.blockSize, d.content.length / d.blockSize,
        d.content.take (d.content.length / d.blockSize * d.blockSize)⟩
      (d.content.drop (d.content.length / d.blockSize * d.blockSize)) :=
  ⟨⟨h0, h1, h2, rfl⟩, (List.take_append_drop _ _).symm⟩

theorem readBlock_handle (b : Nat) (buf : Bytes) (K : Kernel) (d : FileDev)
    (hfit : b * d.blockSize < U64) (hbuf : d.blockSize ≤ buf.length) :
    (readBlock b buf (K, d)).1.2 = d := by
  obtain ⟨K', _, h⟩ := readBlock_spec K d b buf hfit hbuf
  rcases h with ⟨c, h, _⟩ | ⟨_, _, h | h⟩ | ⟨_, h⟩ <;> rw [h]

theorem streamDevSpec_aux (F : Prop) (G : Kernel → Prop)
    (hG : ∀ K K' : Kernel, G K → K'.schedule ⊆ K.schedule → G K')
    (hF : ∀ K c, G K → ReadEvent.fail c ∈ K.schedule → F) :
    StreamDevSpec F streamDev G IsStream (fun K d p => K.offset d.ofd = p) where
  toDev := by
    have h := devSpec_aux F G hG hF
    refine ⟨fun {d k} ⟨t, hI, _⟩ => h.wf hI, fun {w d k} hG ⟨t, hI, _⟩ => h.blockSize hG hI,
      fun {w d k} hG ⟨t, hI, _⟩ => h.blockCount hG hI, ?_, ?_⟩
    · rintro w d k hw ⟨t, hI, hm⟩ b buf hb hbuf
      obtain ⟨h1, h2, h3⟩ := h.readBlock hw hI b buf hb hbuf
      refine ⟨h1, ⟨t, h2, ?_⟩, h3⟩
      obtain ⟨g1, g2, g3, rfl⟩ := hI
      simp only at hb hbuf
      have h4 : (b + 1) * d.blockSize ≤ d.content.length / d.blockSize * d.blockSize :=
        Nat.mul_le_mul_right _ hb
      have h5 := Nat.div_mul_le_self d.content.length d.blockSize
      rw [Nat.add_mul, Nat.one_mul] at h4
      have := readBlock_handle b buf w d (by omega) (by omega)
      change (readBlock b buf (w, d)).1.2.content = _
      rw [this]
      exact hm
    · rintro w d k hw ⟨t, hI, hm⟩
      exact ⟨hw, .inl ⟨d, rfl, t, hI, hm⟩⟩
  seek := by
    rintro K d k t hK ⟨hI, hm⟩ p hp w' d' r h
    simp only [streamDev, seekRaw] at h
    have hl := congrArg List.length hm
    rw [List.length_append] at hl
    rw [if_neg (by omega)] at h
    cases h
    refine ⟨hG _ _ hK (fun _ h => h), ⟨hI, hm⟩, .inl ⟨by simp, by simp⟩⟩
  read := by
    rintro K d k t p hK ⟨hI, hm⟩ rfl buf w' d' r h
    simp only [streamDev] at h
    rcases readRaw_spec buf K d with ⟨c, K1, h1, hc, hsub⟩ | ⟨j, K1, h1, hle, hsl, hoff, hsub, h0⟩
    · rw [h1] at h
      cases h
      exact ⟨hG _ _ hK hsub, ⟨hI, hm⟩, .inr ⟨hF _ _ hK hc, _, rfl⟩⟩
    · rw [h1] at h
      cases h
      refine ⟨hG _ _ hK hsub, ⟨hI, hm⟩, .inl ⟨j, _, _, rfl, ⟨hle, rfl, ?_, ?_, ?_⟩, hoff⟩⟩
      · rw [← hm, slice]
      · intro hj
        rw [← hm]
        rw [slice, List.length_take, List.length_drop] at hsl
        omega
      · rw [← hm]; exact h0

/-- A file-backed device whose reads may fail. -/
theorem streamDevSpec_honest : StreamDevSpec True streamDev (fun _ => True) IsStream
    (fun K d p => K.offset d.ofd = p) :=
  streamDevSpec_aux True _ (fun _ _ _ _ => trivial) (fun _ _ _ _ => trivial)

/-- A file-backed device without failures (short reads allowed). -/
theorem streamDevSpec_reliable : StreamDevSpec False streamDev NoFailures IsStream
    (fun K d p => K.offset d.ofd = p) :=
  streamDevSpec_aux False _ (fun _ _ h hs c hc => h c (hs hc)) (fun _ c h hc => h c hc)

end FileDev
end MdRecover
