import Verif.Lemmas.Superblock
import Verif.Lemmas.Devices
import Verif.Spec.Probe
import Verif.Spec.StreamDevice

namespace MdRecover
open MdSpec

/-- Clearing the low `k` bits of a 64-bit value. -/
theorem and_high_mask {x k : Nat} (hk : k ≤ 64) (hx : x < 2 ^ 64) :
    x &&& (2 ^ 64 - 2 ^ k) = x / 2 ^ k * 2 ^ k := by
  have h1 : 2 ^ 64 - 2 ^ k = (2 ^ (64 - k) - 1) <<< k := by
    rw [Nat.shiftLeft_eq, Nat.sub_mul, ← Nat.pow_add, Nat.one_mul, Nat.sub_add_cancel hk]
  have h2 : x / 2 ^ k * 2 ^ k = (x >>> k) <<< k := by
    rw [Nat.shiftLeft_eq, Nat.shiftRight_eq_div_pow]
  rw [h1, h2]
  apply Nat.eq_of_testBit_eq
  intro i
  rw [Nat.testBit_and, Nat.testBit_shiftLeft, Nat.testBit_shiftLeft, Nat.testBit_shiftRight,
    Nat.testBit_two_pow_sub_one]
  by_cases hi : k ≤ i
  · rw [Nat.add_sub_cancel' hi]
    by_cases h64 : i < 64
    · simp [hi]; omega
    · rw [Nat.testBit_lt_two_pow (Nat.lt_of_lt_of_le hx
        (Nat.pow_le_pow_right (by decide) (by omega)))]
      simp
  · simp [hi]

theorem v10_offset {size : Nat} (h : size < U64) :
    (((size >>> 9) - 16) &&& (U64 - 8)) <<< 9 = ((size / 512 - 16) / 8) * 4096 := by
  have h1 := and_high_mask (x := size / 512 - 16) (k := 3) (by decide)
    (by have : (2 : Nat) ^ 64 = U64 := rfl
        rw [this]; omega)
  rw [Nat.shiftRight_eq_div_pow, Nat.shiftLeft_eq]
  have h2 : (U64 - 8 : Nat) = 2 ^ 64 - 2 ^ 3 := rfl
  rw [h2, show 2 ^ 9 = 512 from rfl, h1, show 2 ^ 3 = 8 from rfl, Nat.mul_assoc]

theorem v0Probe_eq {size : Nat} (h : size < U64) :
    MdDevice.v0Probe size = size / 65536 * 65536 - 65536 := by
  have h1 := and_high_mask (x := size) (k := 16) (by decide) h
  unfold MdDevice.v0Probe
  rw [show (U64 - 65536 : Nat) = 2 ^ 64 - 2 ^ 16 from rfl, h1]

theorem v1Probes_eq {size : Nat} (h : size < U64) :
    MdDevice.v1Probes size = [(2, 4096), (1, 0), (0, ((size / 512 - 16) / 8) * 4096)] := by
  unfold MdDevice.v1Probes
  rw [v10_offset h]; rfl

theorem place10 {size : Nat} (h : 12288 ≤ size) : Place10 size (((size / 512 - 16) / 8) * 4096) := by
  refine ⟨⟨_, Nat.mul_comm _ _⟩, ?_, ?_⟩ <;> omega

theorem place090 {size : Nat} (h : 65536 ≤ size) :
    Place090 size (size / 65536 * 65536 - 65536) := by
  refine ⟨⟨size / 65536 - 1, ?_⟩, ?_, ?_⟩ <;> omega

theorem place10_unique {size a b : Nat} (ha : Place10 size a) (hb : Place10 size b) : a = b := by
  obtain ⟨⟨i, rfl⟩, h1, h2⟩ := ha
  obtain ⟨⟨j, rfl⟩, h3, h4⟩ := hb
  omega

theorem place090_unique {size a b : Nat} (ha : Place090 size a) (hb : Place090 size b) : a = b := by
  obtain ⟨⟨i, rfl⟩, h1, h2⟩ := ha
  obtain ⟨⟨j, rfl⟩, h3, h4⟩ := hb
  omega

/-- `read_exact` over any byte stream.  `I s p`: state `s` is at position `p`; `E` holds after errors. -/
theorem readExactLoop_stream {S : Type} {F : Prop} {read : Bytes → SM S (Nat × Bytes)} {content : Bytes}
    {I : S → Nat → Prop} {E : S → Prop} (hE : ∀ {s p}, I s p → E s)
    (hread : ∀ {s p}, I s p → ∀ buf, ∃ s',
      (∃ j buf' p', read buf s = (s', .ok (j, buf')) ∧ StreamRead content p buf j buf' p' ∧ I s' p') ∨
      (F ∧ E s' ∧ ∃ e, read buf s = (s', .err e))) :
    ∀ (fuel : Nat) {s : S} {p : Nat} (buf : Bytes), I s p → buf.length ≤ fuel →
      ∃ s', E s' ∧
        ((F ∧ ∃ e, readExactLoop read fuel buf s = (s', .err e)) ∨
         (content.length < p + buf.length ∧ buf ≠ [] ∧
            readExactLoop read fuel buf s = (s', .err .unexpectedEof)) ∨
         ((buf = [] ∨ p + buf.length ≤ content.length) ∧ I s' (p + buf.length) ∧
            readExactLoop read fuel buf s = (s', .ok (slice content p buf.length))))
  | 0, s, p, buf, hI, hf => by
    have : buf = [] := List.eq_nil_of_length_eq_zero (by omega)
    subst this
    exact ⟨s, hE hI, .inr (.inr ⟨.inl rfl, hI, by simp [readExactLoop, slice]⟩)⟩
  | fuel + 1, s, p, buf, hI, hf => by
    rw [readExactLoop]
    by_cases hb : buf = []
    · subst hb
      exact ⟨s, hE hI, .inr (.inr ⟨.inl rfl, hI, by simp [slice]⟩)⟩
    rw [if_neg hb]
    obtain ⟨s1, ⟨j, buf', pos', h, hsr, hI1⟩ | ⟨hF, hE1, e, h⟩⟩ := hread hI buf
    case inr => exact ⟨s1, hE1, .inl ⟨hF, e, SM.bind_err (h := h) _⟩⟩
    rw [SM.bind_ok (h := h)]
    simp only
    have hblen : 0 < buf.length := List.length_pos_iff.mpr hb
    have hle := hsr.le
    by_cases hj : j = 0
    · rw [if_pos hj]
      have := (hsr.zero hj).resolve_left hb
      exact ⟨s1, hE hI1, .inr (.inl ⟨by omega, hb, rfl⟩)⟩
    rw [if_neg hj]
    have hin := hsr.inside (by omega)
    have hl1 : ((content.drop p).take j).length = j := by
      rw [List.length_take, List.length_drop]; omega
    have hbl : buf'.length = buf.length := by
      rw [hsr.data, List.length_append, hl1, List.length_drop]; omega
    rw [if_neg (by omega)]
    have hdrop : buf'.drop j = buf.drop j := by
      rw [hsr.data, List.drop_append, hl1, List.drop_eq_nil_of_le (by omega)]; simp
    have htake : buf'.take j = (content.drop p).take j := by
      rw [hsr.data, List.take_append, hl1, List.take_of_length_le (by omega)]; simp
    rw [hdrop, htake]
    have hdl : (buf.drop j).length = buf.length - j := List.length_drop
    obtain ⟨s2, hE2, h2⟩ := readExactLoop_stream (F := F) (read := read) (content := content)
      (I := I) (E := E) hE hread fuel (buf.drop j) hI1 (by omega)
    have hmv := hsr.moved
    rcases h2 with ⟨hF, e, h2⟩ | ⟨hlt, hne, h2⟩ | ⟨hok, hI2, h2⟩
    · exact ⟨s2, hE2, .inl ⟨hF, e, SM.bind_err (h := h2) _⟩⟩
    · exact ⟨s2, hE2, .inr (.inl ⟨by omega, hb, SM.bind_err (h := h2) _⟩)⟩
    · refine ⟨s2, hE2, .inr (.inr ⟨.inr ?_, ?_, ?_⟩)⟩
      · rcases hok with h0 | hok
        · have := congrArg List.length h0
          rw [hdl] at this
          simp at this
          omega
        · omega
      · rw [hmv, hdl, show p + j + (buf.length - j) = p + buf.length by omega] at hI2
        exact hI2
      · rw [SM.bind_ok (h := h2), SM.pure_apply, hmv, hdl]
        simp only [slice]
        rw [← List.drop_drop, ← List.take_add]
        congr 4; omega

section
variable {W D : Type} {F : Prop} {dev : StreamDev W D} {G : W → Prop} {Is : D → Disk → Bytes → Prop}
  {At : W → D → Nat → Prop}

/-- `read_exact` on a device that is a byte stream. -/
theorem streamDev_readExact (hd : StreamDevSpec F dev G Is At) {w : W} {d : D} {k : Disk} {t : Bytes}
    {p : Nat} (hG : G w) (hI : Is d k t) (hA : At w d p) (n : Nat)
    (hn : p + n ≤ k.content.length) :
    ∃ w' d', G w' ∧ Is d' k t ∧
      ((F ∧ ∃ e, readExact dev.read (zeros n) (w, d) = ((w', d'), .err e)) ∨
       (At w' d' (p + n) ∧
        readExact dev.read (zeros n) (w, d) = ((w', d'), .ok (slice k.content p n)))) := by
  have hz : (zeros n).length = n := List.length_replicate
  obtain ⟨⟨w', d'⟩, ⟨hG', hI'⟩, h⟩ := readExactLoop_stream (F := F) (read := dev.read)
    (content := k.content ++ t)
    (I := fun s p => (G s.1 ∧ Is s.2 k t) ∧ At s.1 s.2 p) (E := fun s => G s.1 ∧ Is s.2 k t)
    (fun h => h.1)
    (by
      rintro ⟨w, d⟩ p ⟨⟨hG, hI⟩, hA⟩ buf
      rcases hr : dev.read buf (w, d) with ⟨⟨w', d'⟩, r⟩
      obtain ⟨hG', hI', h⟩ := hd.read hG hI hA buf hr
      refine ⟨(w', d'), ?_⟩
      rcases h with ⟨j, buf', p', rfl, hs, hA'⟩ | ⟨hF, e, rfl⟩
      · exact .inl ⟨j, buf', p', rfl, hs, ⟨hG', hI'⟩, hA'⟩
      · exact .inr ⟨hF, ⟨hG', hI'⟩, e, rfl⟩)
    (zeros n).length (s := (w, d)) (p := p) (zeros n) ⟨⟨hG, hI⟩, hA⟩ (Nat.le_refl _)
  rw [hz] at h
  refine ⟨w', d', hG', hI', ?_⟩
  unfold readExact
  rw [hz]
  rcases h with h | ⟨h, _⟩ | ⟨_, h1, h2⟩
  · exact .inl h
  · rw [List.length_append] at h; omega
  · refine .inr ⟨h1.2, ?_⟩
    rw [h2, slice_append_left hn]

theorem probeV1_cons (dev : StreamDev W D) (minor off : Nat) (rest : List (Nat × Nat)) :
    MdDevice.probeV1 dev ((minor, off) :: rest) = (do
      let _ ← dev.seek (.start off)
      let r ← SM.attempt (SuperblockV1.read dev.read minor)
      match r with
      | some s => pure (some s)
      | none => MdDevice.probeV1 dev rest) := rfl

/-- One version-1 probe. -/
theorem probeV1_step (hd : StreamDevSpec F dev G Is At) {w : W} {d : D} {k : Disk} {t : Bytes}
    (hG : G w) (hI : Is d k t) (off : Nat) (minor : Nat) (rest : List (Nat × Nat))
    (hoff : off + 4096 ≤ k.content.length) :
    ∃ w' d', G w' ∧ Is d' k t ∧
      ((F ∧ ∃ e, MdDevice.probeV1 dev ((minor, off) :: rest) (w, d) = ((w', d'), .err e)) ∨
       (V1At k.content off ∧ MdDevice.probeV1 dev ((minor, off) :: rest) (w, d) =
          ((w', d'), .ok (some ⟨slice k.content off 4096, minor⟩))) ∨
       ((F ∨ ¬ V1At k.content off) ∧ MdDevice.probeV1 dev ((minor, off) :: rest) (w, d) =
          MdDevice.probeV1 dev rest (w', d'))) := by
  rw [probeV1_cons]
  rcases hs : dev.seek (.start off) (w, d) with ⟨⟨w1, d1⟩, r⟩
  obtain ⟨hG1, hI1, h⟩ := hd.seek hG hI off (by omega) hs
  rcases h with ⟨rfl, hA⟩ | ⟨hF, e, rfl⟩
  case inr => exact ⟨w1, d1, hG1, hI1, .inl ⟨hF, e, SM.bind_err (h := hs) _⟩⟩
  rw [SM.bind_ok (h := hs)]
  obtain ⟨w2, d2, hG2, hI2, h⟩ := streamDev_readExact hd hG1 hI1 hA 4096 hoff
  refine ⟨w2, d2, hG2, hI2, ?_⟩
  rcases h with ⟨hF, e, h⟩ | ⟨_, h⟩
  · have hr : SuperblockV1.read dev.read minor (w1, d1) = ((w2, d2), .err e) := SM.bind_err (h := h) _
    right; right
    refine ⟨.inl hF, ?_⟩
    rw [SM.bind_ok (s' := (w2, d2)) (a := none) (h := by simp only [SM.attempt, hr])]
  · have h0 : slice (slice k.content off 4096) 0 4 = slice k.content off 4 := by
      rw [slice_slice (by decide)]; rfl
    have h4 : slice (slice k.content off 4096) 4 4 = slice k.content (off + 4) 4 :=
      slice_slice (by decide)
    have hv : (SuperblockV1.mk (slice k.content off 4096) minor).valid =
        decide (leNat (slice k.content off 4) = 0xa92b4efc ∧
          leNat (slice k.content (off + 4) 4) = 1) := by
      rw [Bool.decide_and, ← h0, ← h4]; rfl
    by_cases hc : leNat (slice k.content off 4) = 0xa92b4efc ∧
          leNat (slice k.content (off + 4) 4) = 1
    · right; left
      have hr : SuperblockV1.read dev.read minor (w1, d1) =
          ((w2, d2), .ok ⟨slice k.content off 4096, minor⟩) := by
        unfold SuperblockV1.read
        rw [SM.bind_ok (h := h), hv, decide_eq_true hc]; rfl
      refine ⟨hc, ?_⟩
      rw [SM.bind_ok (s' := (w2, d2)) (a := some ⟨slice k.content off 4096, minor⟩)
        (h := by simp only [SM.attempt, hr])]
      rfl
    · right; right
      have hr : SuperblockV1.read dev.read minor (w1, d1) = ((w2, d2), .err .invalidData) := by
        unfold SuperblockV1.read
        rw [SM.bind_ok (h := h), hv, decide_eq_false hc]; rfl
      refine ⟨.inr hc, ?_⟩
      rw [SM.bind_ok (s' := (w2, d2)) (a := none) (h := by simp only [SM.attempt, hr])]

theorem probeV0_step (hd : StreamDevSpec F dev G Is At) {w : W} {d : D} {k : Disk} {t : Bytes}
    (hG : G w) (hI : Is d k t)
    (hlt : k.content.length < U64) (hsz : 65536 ≤ k.content.length) :
    ∃ w' d', G w' ∧ Is d' k t ∧
      ((F ∧ ∃ e, MdDevice.probeV0 dev k.content.length (w, d) = ((w', d'), .err e)) ∨
       (∃ e off, Place090 k.content.length off ∧ V0At k.content off e ∧
          MdDevice.probeV0 dev k.content.length (w, d) =
          ((w', d'), .ok (some (SuperblockV0.ofView e (slice k.content off 4096))))) ∨
       ((F ∨ ∀ off e, Place090 k.content.length off → ¬ V0At k.content off e) ∧
          MdDevice.probeV0 dev k.content.length (w, d) = ((w', d'), .ok none))) := by
  unfold MdDevice.probeV0
  rw [if_pos hsz, v0Probe_eq hlt]
  have hpl := place090 hsz
  generalize k.content.length / 65536 * 65536 - 65536 = off at hpl
  have hle : off + 65536 ≤ k.content.length := hpl.2.1
  rcases hs : dev.seek (.start off) (w, d) with ⟨⟨w1, d1⟩, r⟩
  obtain ⟨hG1, hI1, h⟩ := hd.seek hG hI off (by omega) hs
  rcases h with ⟨rfl, hA⟩ | ⟨hF, e, rfl⟩
  case inr => exact ⟨w1, d1, hG1, hI1, .inl ⟨hF, e, SM.bind_err (h := hs) _⟩⟩
  rw [SM.bind_ok (h := hs)]
  obtain ⟨w2, d2, hG2, hI2, h⟩ := streamDev_readExact hd hG1 hI1 hA 4096 (by omega)
  refine ⟨w2, d2, hG2, hI2, ?_⟩
  rcases h with ⟨hF, e, h⟩ | ⟨_, h⟩
  · have hr : SuperblockV0.read dev.read (w1, d1) = ((w2, d2), .err e) := SM.bind_err (h := h) _
    right; right
    exact ⟨.inl hF, by simp only [SM.attempt, hr]⟩
  · have hr : SuperblockV0.read dev.read (w1, d1) =
        (if (SuperblockV0.decode (slice k.content off 4096)).valid = true then
          ((w2, d2), .ok (SuperblockV0.decode (slice k.content off 4096)))
        else ((w2, d2), .err .invalidData)) := by
      unfold SuperblockV0.read
      rw [show v0Layout.size = 4096 from rfl, SM.bind_ok (h := h)]
      split <;> rfl
    by_cases hc : (SuperblockV0.decode (slice k.content off 4096)).valid = true
    · right; left
      obtain ⟨e, he⟩ := (v0_decode_valid_iff _).mpr hc
      refine ⟨e, off, hpl, he, ?_⟩
      rw [if_pos hc, v0_decode_of_acceptable he] at hr
      simp only [SM.attempt, hr]
    · right; right
      rw [if_neg hc] at hr
      refine ⟨.inr fun off' e hp hv => ?_, by simp only [SM.attempt, hr]⟩
      rw [place090_unique hp hpl] at hv
      exact hc ((v0_decode_valid_iff _).mp ⟨e, hv⟩)

end
end MdRecover

namespace MdRecover
open MdSpec
section
variable {W D : Type} {F : Prop} {dev : StreamDev W D} {G : W → Prop} {Is : D → Disk → Bytes → Prop}
  {At : W → D → Nat → Prop}

/-- The three version-1 probes. -/
theorem probeV1_spec (hd : StreamDevSpec F dev G Is At) {w : W} {d : D} {k : Disk} {t : Bytes}
    (hG : G w) (hI : Is d k t) {off : Nat} (hsz : 12288 ≤ k.content.length)
    (hp : Place10 k.content.length off) :
    ∃ w' d', G w' ∧ Is d' k t ∧
      ((F ∧ ∃ e, MdDevice.probeV1 dev [(2, 4096), (1, 0), (0, off)] (w, d) = ((w', d'), .err e)) ∨
       (∃ s : SuperblockV1, MdDevice.probeV1 dev [(2, 4096), (1, 0), (0, off)] (w, d) =
          ((w', d'), .ok (some s)) ∧
          ((V1At k.content 4096 ∧ s = ⟨slice k.content 4096 4096, 2⟩) ∨
           ((F ∨ ¬ V1At k.content 4096) ∧ V1At k.content 0 ∧ s = ⟨slice k.content 0 4096, 1⟩) ∨
           ((F ∨ ¬ V1At k.content 4096) ∧ (F ∨ ¬ V1At k.content 0) ∧ V1At k.content off ∧
            s = ⟨slice k.content off 4096, 0⟩))) ∨
       ((F ∨ ¬ V1At k.content 4096) ∧ (F ∨ ¬ V1At k.content 0) ∧ (F ∨ ¬ V1At k.content off) ∧
        MdDevice.probeV1 dev [(2, 4096), (1, 0), (0, off)] (w, d) = ((w', d'), .ok none))) := by
  obtain ⟨_, hp2, _⟩ := hp
  obtain ⟨w1, d1, hG1, hI1, h⟩ := probeV1_step hd hG hI 4096 2 [(1, 0), (0, off)] (by omega)
  rcases h with h | ⟨h1, h⟩ | ⟨h1, h⟩
  · exact ⟨w1, d1, hG1, hI1, .inl h⟩
  · exact ⟨w1, d1, hG1, hI1, .inr (.inl ⟨_, h, .inl ⟨h1, rfl⟩⟩)⟩
  rw [h]
  obtain ⟨w2, d2, hG2, hI2, h⟩ := probeV1_step hd hG1 hI1 0 1 [(0, off)] (by omega)
  rcases h with h | ⟨h2, h⟩ | ⟨h2, h⟩
  · exact ⟨w2, d2, hG2, hI2, .inl h⟩
  · exact ⟨w2, d2, hG2, hI2, .inr (.inl ⟨_, h, .inr (.inl ⟨h1, h2, rfl⟩)⟩)⟩
  rw [h]
  obtain ⟨w3, d3, hG3, hI3, h⟩ := probeV1_step hd hG2 hI2 off 0 [] (by omega)
  rcases h with h | ⟨h3, h⟩ | ⟨h3, h⟩
  · exact ⟨w3, d3, hG3, hI3, .inl h⟩
  · exact ⟨w3, d3, hG3, hI3, .inr (.inl ⟨_, h, .inr (.inr ⟨h1, h2, h3, rfl⟩)⟩)⟩
  · exact ⟨w3, d3, hG3, hI3, .inr (.inr ⟨h1, h2, h3, h⟩)⟩

theorem findSuperblock_ge (dev : StreamDev W D) {size : Nat} (h : 12288 ≤ size) :
    MdDevice.findSuperblock dev size = (do
      let r ← MdDevice.probeV1 dev (MdDevice.v1Probes size)
      match r with
      | some s => pure (.superblock s.toSuperblock)
      | none => do
        let r ← MdDevice.probeV0 dev size
        match r with
        | some s => pure (.superblock s.toSuperblock)
        | none => pure .missing) := if_neg (by omega)

/-- What the probing gives. -/
theorem findSuperblock_spec (hd : StreamDevSpec F dev G Is At) {w : W} {d : D} {k : Disk} {t : Bytes}
    (hG : G w) (hI : Is d k t) :
    ∃ w' d', G w' ∧ Is d' k t ∧
      ((F ∧ ∃ e, MdDevice.findSuperblock dev k.content.length (w, d) = ((w', d'), .err e)) ∨
       (∃ sb, MdDevice.findSuperblock dev k.content.length (w, d) = ((w', d'), .ok sb) ∧
         (Expected k.content sb ∨ (F ∧ 12288 ≤ k.content.length ∧
           (sb = .missing ∨ Genuine k.content sb))))) := by
  have hwf := hd.toDev.wf ⟨t, hI⟩
  have hlt : k.content.length < U64 := by rw [hwf.len]; exact hwf.size_lt
  rcases Nat.lt_or_ge k.content.length 12288 with hs | hs
  · refine ⟨w, d, hG, hI, .inr ⟨.tooSmall, ?_, .inl (.tooSmall hs)⟩⟩
    unfold MdDevice.findSuperblock
    rw [if_pos hs]; rfl
  rw [findSuperblock_ge dev hs, v1Probes_eq hlt]
  have hp := place10 hs
  generalize (k.content.length / 512 - 16) / 8 * 4096 = off at hp
  obtain ⟨w1, d1, hG1, hI1, h⟩ := probeV1_spec hd hG hI hs hp
  rcases h with ⟨hF, e, h⟩ | ⟨s, h, hc⟩ | ⟨h1, h2, h3, h⟩
  · exact ⟨w1, d1, hG1, hI1, .inl ⟨hF, e, SM.bind_err (h := h) _⟩⟩
  · refine ⟨w1, d1, hG1, hI1, .inr ⟨.superblock s.toSuperblock, ?_, ?_⟩⟩
    · rw [SM.bind_ok (h := h)]; rfl
    · rcases hc with ⟨h1, rfl⟩ | ⟨h1, h2, rfl⟩ | ⟨h1, h2, h3, rfl⟩
      · exact .inl (.v12 hs h1)
      · rcases h1 with hF | h1
        · exact .inr ⟨hF, hs, .inr (.inr (.inl ⟨h2, rfl⟩))⟩
        · exact .inl (.v11 hs h1 h2)
      · rcases h1 with hF | h1
        · exact .inr ⟨hF, hs, .inr (.inr (.inr (.inl ⟨off, hp, h3, rfl⟩)))⟩
        rcases h2 with hF | h2
        · exact .inr ⟨hF, hs, .inr (.inr (.inr (.inl ⟨off, hp, h3, rfl⟩)))⟩
        · exact .inl (.v10 hs h1 h2 hp h3)
  rw [SM.bind_ok (h := h)]
  simp only
  rcases Nat.lt_or_ge k.content.length 65536 with hs0 | hs0
  · refine ⟨w1, d1, hG1, hI1, .inr ⟨.missing, ?_, ?_⟩⟩
    · rw [SM.bind_ok (a := none) (s' := (w1, d1)) (h := by
        unfold MdDevice.probeV0; rw [if_neg (by omega)]; rfl)]
      rfl
    · rcases h1 with hF | h1
      · exact .inr ⟨hF, hs, .inl rfl⟩
      rcases h2 with hF | h2
      · exact .inr ⟨hF, hs, .inl rfl⟩
      rcases h3 with hF | h3
      · exact .inr ⟨hF, hs, .inl rfl⟩
      exact .inl (.missing hs h1 h2 hp h3 (by
        rintro o e ⟨_, h, _⟩; omega))
  obtain ⟨w2, d2, hG2, hI2, h'⟩ := probeV0_step hd hG1 hI1 hlt hs0
  rcases h' with ⟨hF, e, h'⟩ | ⟨e, o, ho, hv, h'⟩ | ⟨hn, h'⟩
  · exact ⟨w2, d2, hG2, hI2, .inl ⟨hF, e, SM.bind_err (h := h') _⟩⟩
  · refine ⟨w2, d2, hG2, hI2, .inr ⟨_, by rw [SM.bind_ok (h := h')]; rfl, ?_⟩⟩
    have hg : Genuine k.content (v0Result k.content o e) := .inr (.inr (.inr ⟨o, e, ho, hv, rfl⟩))
    rcases h1 with hF | h1
    · exact .inr ⟨hF, hs, .inr hg⟩
    rcases h2 with hF | h2
    · exact .inr ⟨hF, hs, .inr hg⟩
    rcases h3 with hF | h3
    · exact .inr ⟨hF, hs, .inr hg⟩
    exact .inl (.v090 hs h1 h2 hp h3 ho hv)
  · refine ⟨w2, d2, hG2, hI2, .inr ⟨.missing, by rw [SM.bind_ok (h := h')]; rfl, ?_⟩⟩
    rcases h1 with hF | h1
    · exact .inr ⟨hF, hs, .inl rfl⟩
    rcases h2 with hF | h2
    · exact .inr ⟨hF, hs, .inl rfl⟩
    rcases h3 with hF | h3
    · exact .inr ⟨hF, hs, .inl rfl⟩
    rcases hn with hF | hn
    · exact .inr ⟨hF, hs, .inl rfl⟩
    exact .inl (.missing hs h1 h2 hp h3 hn)

/-- The size of a device. -/
theorem deviceSize_spec (hd : StreamDevSpec F dev G Is At) {w : W} {d : D} {k : Disk} {t : Bytes}
    (hG : G w) (hI : Is d k t) :
    ∃ w', G w' ∧ ((F ∧ ∃ e, MdDevice.deviceSize dev (w, d) = ((w', d), .err e)) ∨
      MdDevice.deviceSize dev (w, d) = ((w', d), .ok k.content.length)) := by
  have hwf := hd.toDev.wf ⟨t, hI⟩
  obtain ⟨hG1, h1⟩ := hd.toDev.blockCount hG ⟨t, hI⟩
  obtain ⟨hG2, h2⟩ := hd.toDev.blockSize hG1 ⟨t, hI⟩
  unfold MdDevice.deviceSize
  rw [SM.bind_ok (h := SM.get_apply _)]
  simp only
  rcases h1 with h1 | ⟨hF, e, h1⟩
  case inr =>
    refine ⟨_, hG1, .inl ⟨hF, e, SM.bind_err _ ?_⟩⟩
    simp only [SM.zoom, h1]
  rw [SM.bind_ok (a := k.n) (s' := ((dev.blockCount d w).1, d)) (h := by simp only [SM.zoom, h1])]
  rcases h2 with h2 | ⟨hF, e, h2⟩
  case inr =>
    refine ⟨_, hG2, .inl ⟨hF, e, SM.bind_err _ ?_⟩⟩
    simp only [SM.zoom, h2]
  rw [SM.bind_ok (a := k.bs) (s' := ((dev.blockSize d (dev.blockCount d w).1).1, d))
    (h := by simp only [SM.zoom, h2])]
  refine ⟨_, hG2, .inr ?_⟩
  rw [sizeBytes, checkedMul64_pos hwf.size_lt, hwf.len]; rfl

/-- Opening a member device. -/
theorem fromBlockDevice_spec (hd : StreamDevSpec F dev G Is At) {w : W} {d : D} {k : Disk} {t : Bytes}
    (hG : G w) (hI : Is d k t) (ref : Option Bytes) {i : Nat} (hi : i < U64 - 1) :
    ∃ w' d' i', G w' ∧ Is d' k t ∧ (i' = i ∨ i' = i + 1) ∧
      ((F ∧ ∃ e, MdDevice.fromBlockDevice dev ref ((w, d), i) = (((w', d'), i'), .err e)) ∨
       (∃ sb, MdDevice.fromBlockDevice dev ref ((w, d), i) =
           (((w', d'), i'), .ok ⟨⟨i, ref⟩, sb, d'⟩) ∧ i' = i + 1 ∧
         (Expected k.content sb ∨ (F ∧ 12288 ≤ k.content.length ∧
           (sb = .missing ∨ Genuine k.content sb))))) := by
  obtain ⟨w1, hG1, h⟩ := deviceSize_spec hd hG hI
  unfold MdDevice.fromBlockDevice
  rcases h with ⟨hF, e, h⟩ | h
  · refine ⟨w1, d, i, hG1, hI, .inl rfl, .inl ⟨hF, e, SM.bind_err _ ?_⟩⟩
    simp only [SM.zoom, h]
  rw [SM.bind_ok (a := k.content.length) (s' := ((w1, d), i)) (h := by simp only [SM.zoom, h])]
  have hn : nextIndex i = (i + 1, .ok i) := by
    unfold nextIndex
    rw [if_neg (by omega), Nat.mod_eq_of_lt (by omega)]
  have hid : MdDeviceId.new ref i = (i + 1, .ok ⟨i, ref⟩) := by
    unfold MdDeviceId.new
    rw [SM.bind_ok (h := hn)]; rfl
  rw [SM.bind_ok (a := ⟨i, ref⟩) (s' := ((w1, d), i + 1)) (h := by simp only [SM.zoom, hid])]
  obtain ⟨w2, d2, hG2, hI2, h⟩ := findSuperblock_spec hd hG1 hI
  rcases h with ⟨hF, e, h⟩ | ⟨sb, h, hc⟩
  · refine ⟨w2, d2, i + 1, hG2, hI2, .inr rfl, .inl ⟨hF, e, SM.bind_err _ ?_⟩⟩
    simp only [SM.zoom, h]
  · refine ⟨w2, d2, i + 1, hG2, hI2, .inr rfl, .inr ⟨sb, ?_, rfl, hc⟩⟩
    rw [SM.bind_ok (a := sb) (s' := ((w2, d2), i + 1)) (h := by simp only [SM.zoom, h])]
    rfl

end
end MdRecover
