import Verif.Spec.Volume
import Verif.Lemmas.Probe
import Verif.Lemmas.StreamDevices
import Verif.Lemmas.Reader

namespace MdRecover
open MdSpec

section
variable {W D : Type} {F : Prop} {dev : StreamDev W D} {G : W → Prop} {Is : D → Bytes → Prop}
  {At : W → D → Nat → Prop}

/-- `read_exact` at a known position. -/
theorem volume_readExact (hv : VolumeSpec F dev G Is At) {w : W} {d : D} {c : Bytes} {p : Nat}
    (hG : G w) (hI : Is d c) (hA : At w d p) (buf : Bytes) :
    ∃ w' d', G w' ∧ Is d' c ∧
      ((F ∧ ∃ e, readExact dev.read buf (w, d) = ((w', d'), .err e)) ∨
       (c.length < p + buf.length ∧ buf ≠ [] ∧
          readExact dev.read buf (w, d) = ((w', d'), .err .unexpectedEof)) ∨
       ((buf = [] ∨ p + buf.length ≤ c.length) ∧ At w' d' (p + buf.length) ∧
          readExact dev.read buf (w, d) = ((w', d'), .ok (slice c p buf.length)))) := by
  obtain ⟨⟨w', d'⟩, ⟨hG', hI'⟩, h⟩ := readExactLoop_stream (F := F) (read := dev.read)
    (content := c)
    (I := fun s p => (G s.1 ∧ Is s.2 c) ∧ At s.1 s.2 p) (E := fun s => G s.1 ∧ Is s.2 c)
    (fun h => h.1)
    (by
      rintro ⟨w, d⟩ p ⟨⟨hG, hI⟩, hA⟩ buf
      rcases hr : dev.read buf (w, d) with ⟨⟨w', d'⟩, r⟩
      obtain ⟨hG', hI', h⟩ := hv.read hG hI hA buf hr
      refine ⟨(w', d'), ?_⟩
      rcases h with ⟨j, buf', p', rfl, hs, hA'⟩ | ⟨hF, e, rfl⟩
      · exact .inl ⟨j, buf', p', rfl, hs, ⟨hG', hI'⟩, hA'⟩
      · exact .inr ⟨hF, ⟨hG', hI'⟩, e, rfl⟩)
    buf.length (s := (w, d)) (p := p) buf ⟨⟨hG, hI⟩, hA⟩ (Nat.le_refl _)
  refine ⟨w', d', hG', hI', ?_⟩
  rcases h with h | h | ⟨h1, h2, h3⟩
  · exact .inl h
  · exact .inr (.inl h)
  · exact .inr (.inr ⟨h1, h2.2, h3⟩)

/-- Seek and `read_exact`. -/
theorem volume_readAt (hv : VolumeSpec F dev G Is At) {w : W} {d : D} {c : Bytes} (hG : G w)
    (hI : Is d c) {p : Nat} (hp : p < U64) (buf : Bytes) :
    ∃ w1 d1 r1, dev.seek (.start p) (w, d) = ((w1, d1), r1) ∧ G w1 ∧ Is d1 c ∧
      (((F ∨ c.length < p) ∧ ∃ e, r1 = .err e) ∨
       (∃ q, r1 = .ok q ∧ ∃ w' d' r, readExact dev.read buf (w1, d1) = ((w', d'), r) ∧ G w' ∧ Is d' c ∧
          (((F ∨ c.length < p + buf.length) ∧ ∃ e, r = .err e) ∨
           ((buf = [] ∨ p + buf.length ≤ c.length) ∧ (p ≤ c.length → At w' d' (p + buf.length)) ∧
              r = .ok (slice c p buf.length))))) := by
  rcases hs : dev.seek (.start p) (w, d) with ⟨⟨w1, d1⟩, r1⟩
  obtain ⟨hG1, hI1, h⟩ := hv.seek hG hI p hp hs
  refine ⟨w1, d1, r1, rfl, hG1, hI1, ?_⟩
  rcases h with ⟨q, rfl, hA, hq1, hq2⟩ | h
  · refine .inr ⟨q, rfl, ?_⟩
    obtain ⟨w', d', hG', hI', h⟩ := volume_readExact hv hG1 hI1 hA buf
    refine ⟨w', d', (readExact dev.read buf (w1, d1)).2, ?_, hG', hI', ?_⟩
    · rcases h with ⟨-, e, h⟩ | ⟨-, -, h⟩ | ⟨-, -, h⟩ <;> rw [h]
    · by_cases hpl : p ≤ c.length
      · have := hq1 hpl
        subst this
        rcases h with ⟨hF, e, h⟩ | ⟨hl, -, h⟩ | ⟨h1, h2, h3⟩
        · exact .inl ⟨.inl hF, e, by rw [h]⟩
        · exact .inl ⟨.inr hl, _, by rw [h]⟩
        · exact .inr ⟨h1, fun _ => h2, by rw [h3]⟩
      · have hq := hq2 (by omega)
        rcases h with ⟨hF, e, h⟩ | ⟨hl, -, h⟩ | ⟨h1, h2, h3⟩
        · exact .inl ⟨.inl hF, e, by rw [h]⟩
        · exact .inl ⟨.inr (by omega), _, by rw [h]⟩
        · have hb : buf = [] := by
            rcases h1 with h1 | h1
            · exact h1
            · apply List.eq_nil_of_length_eq_zero; omega
          subst hb
          exact .inr ⟨.inl rfl, fun h => absurd h hpl, by rw [h3]; simp [slice]⟩
  · exact .inl h

end

/-- An in-memory device is a volume that never fails. -/
theorem InMemory.volumeSpec : VolumeSpec False InMemory.streamDev (fun _ => True)
    (fun d c => d.mem = c) (fun _ d p => d.pos = p ∧ p ≤ d.mem.length) where
  seek := by
    rintro w d c - rfl p hp w' d' r h
    simp only [streamDev, SM.zoom, InMemory.seek] at h
    cases h
    refine ⟨trivial, rfl, .inl ⟨_, rfl, ⟨rfl, Nat.min_le_right _ _⟩, ?_, ?_⟩⟩ <;> omega
  read := by
    rintro w d c p - rfl ⟨rfl, hp⟩ buf w' d' r h
    simp only [streamDev, SM.zoom, InMemory.read] at h
    rw [if_neg (by omega)] at h
    cases h
    refine ⟨trivial, rfl, .inl ⟨_, _, _, rfl, ⟨?_, rfl, ?_, ?_, ?_⟩, rfl, ?_⟩⟩
    · exact Nat.min_le_left _ _
    · simp only [overwrite, slice]
      congr 2
      rw [List.length_take, List.length_drop]; omega
    · omega
    · intro h0
      rcases buf with _ | ⟨a, b⟩
      · exact .inl rfl
      · right
        simp only [List.length_cons] at h0
        omega
    · simp only; omega
  tryClone := by
    rintro w d c - rfl w' r h
    cases h
    exact ⟨trivial, .inl ⟨_, rfl, rfl⟩⟩

namespace FileDev

theorem readRaw_beyond (buf : Bytes) (K : Kernel) (d : FileDev) :
    (readRaw buf (K, d)).1.1.beyond = K.beyond := by
  simp only [readRaw]
  split <;> rfl

theorem volumeSpec_aux (F : Prop) (G : Kernel → Prop)
    (hG : ∀ K K' : Kernel, G K → K'.schedule ⊆ K.schedule → K'.beyond = K.beyond → G K')
    (hF : ∀ K c, G K → ReadEvent.fail c ∈ K.schedule → F) :
    VolumeSpec F streamDev G (fun d c => d.content = c) (fun K d p => K.offset d.ofd = p) where
  seek := by
    rintro K d c hK rfl p hp w' d' r h
    simp only [streamDev, seekRaw] at h
    by_cases hfar : d.content.length + K.beyond d.ofd < p
    · rw [if_pos (by omega)] at h
      cases h
      exact ⟨hK, rfl, .inr ⟨.inr (by omega), _, rfl⟩⟩
    · rw [if_neg (by omega)] at h
      cases h
      refine ⟨hG _ _ hK (fun _ h => h) rfl, rfl, .inl ⟨_, rfl, by simp, ?_, ?_⟩⟩ <;> simp
      omega
  read := by
    rintro K d c p hK rfl rfl buf w' d' r h
    simp only [streamDev] at h
    have hb := readRaw_beyond buf K d
    rcases readRaw_spec buf K d with ⟨c, K1, h1, hc, hsub⟩ | ⟨j, K1, h1, hle, hsl, hoff, hsub, h0⟩
    · rw [h1] at h hb
      cases h
      exact ⟨hG _ _ hK hsub hb, rfl, .inr ⟨hF _ _ hK hc, _, rfl⟩⟩
    · rw [h1] at h hb
      cases h
      refine ⟨hG _ _ hK hsub hb, rfl, .inl ⟨j, _, _, rfl, ⟨hle, rfl, ?_, ?_, ?_⟩, hoff⟩⟩
      · rw [slice]
      · intro hj
        rw [slice, List.length_take, List.length_drop] at hsl
        omega
      · exact h0
  tryClone := by
    rintro K d c hK rfl w' r h
    cases h
    exact ⟨hK, .inl ⟨_, rfl, rfl⟩⟩

/-- A file-backed device whose reads may fail. -/
theorem volumeSpec_honest : VolumeSpec True streamDev (fun _ => True) (fun d c => d.content = c)
    (fun K d p => K.offset d.ofd = p) :=
  volumeSpec_aux True _ (fun _ _ _ _ _ => trivial) (fun _ _ _ _ => trivial)

/-- A file-backed device without failures (short reads allowed). -/
theorem volumeSpec_reliable : VolumeSpec False streamDev NoFailures (fun d c => d.content = c)
    (fun K d p => K.offset d.ofd = p) :=
  volumeSpec_aux False _ (fun _ _ h hs _ c hc => h c (hs hc)) (fun _ c h hc => h c hc)

end FileDev

/-- A reader over a block device that holds disk `k` is a volume with the content of `k`. -/
theorem Reader.volumeSpec {W D : Type} {F : Prop} {dev : BlockDev W D} {G : W → Prop}
    {Is : D → Disk → Prop} (hd : DevSpec F dev G Is) (k : Disk) :
    VolumeSpec F (Reader.streamDev dev) G
      (fun r c => c = k.content ∧ ∃ pos, Reader.At Is k r pos)
      (fun _ r p => Reader.At Is k r p) where
  seek := by
    rintro w r c hG ⟨rfl, pos, hr⟩ p hp w' r' x h
    obtain ⟨w1, r1, hG1, h1⟩ := Reader.seek_spec hd hG hr (.start p)
      (fun q hq => by cases hq; exact hp)
    rcases h1 with ⟨hF, e, h1, hr1⟩ | ⟨hbad, -, -⟩ | ⟨q, hq, hql, h1, hr1⟩
    · have h2 := h1.symm.trans h
      cases h2
      exact ⟨hG1, ⟨rfl, pos, hr1⟩, .inr ⟨.inl hF, e, rfl⟩⟩
    · exact absurd ⟨by simp [seekGoal], by simp only [seekGoal]; omega⟩ hbad
    · have h2 := h1.symm.trans h
      cases h2
      have : q = p := by simp only [seekGoal] at hq; omega
      subst this
      exact ⟨hG1, ⟨rfl, q, hr1⟩, .inl ⟨q, rfl, hr1, fun _ => rfl, fun h => by omega⟩⟩
  read := by
    rintro w r c p hG ⟨rfl, -⟩ hr buf w' r' x h
    obtain ⟨w1, r1, hG1, h1⟩ := Reader.read_spec hd hG hr buf
    rcases h1 with ⟨hF, e, h1, hr1⟩ | ⟨j, buf', p', h1, hs, hr1⟩
    · have h2 := h1.symm.trans h
      cases h2
      exact ⟨hG1, ⟨rfl, p, hr1⟩, .inr ⟨hF, e, rfl⟩⟩
    · have h2 := h1.symm.trans h
      cases h2
      exact ⟨hG1, ⟨rfl, p', hr1⟩, .inl ⟨j, buf', p', rfl, hs, hr1⟩⟩
  tryClone := by
    rintro w r c hG ⟨rfl, pos, hr⟩ w' x h
    obtain ⟨hG', h1⟩ := hd.tryClone hG hr.is
    rcases htc : dev.tryClone r.device w with ⟨w1, y⟩
    rw [htc] at hG' h1
    rcases h1 with ⟨d', hy, hd'⟩ | ⟨hF, e, hy⟩
    · simp only at hy
      subst hy
      have h2 : Reader.tryClone dev r w = (w1, .ok { r with device := d' }) := by
        unfold Reader.tryClone
        rw [SM.bind_ok (h := htc)]; rfl
      have h3 := h2.symm.trans h
      cases h3
      exact ⟨hG', .inl ⟨_, rfl, rfl, pos, hd', hr.pos_eq, hr.byte_lt, hr.pos_lt⟩⟩
    · simp only at hy
      subst hy
      have h2 : Reader.tryClone dev r w = (w1, .err e) := SM.bind_err (h := htc) _
      have h3 := h2.symm.trans h
      cases h3
      exact ⟨hG', .inr ⟨hF, e, rfl⟩⟩

end MdRecover
