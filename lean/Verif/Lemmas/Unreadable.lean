import Verif.Lemmas.Probe
import Verif.Lemmas.Patchy
import Verif.Spec.Unreadable

/-! Probing for superblocks on devices some bytes of which can never be read. -/

namespace MdRecover
open MdSpec

section
variable {W D : Type} {bad : Nat → Prop} {dev : StreamDev W D} {G : W → Prop} {Is : D → Disk → Bytes → Prop}
  {At : W → D → Nat → Prop}

theorem intact_split {bad : Nat → Prop} {c : Bytes} {p m n : Nat} (hm : m ≤ n) :
    Intact bad c p n ↔ Intact bad c p m ∧ Intact bad c (p + m) (n - m) := by
  constructor
  · intro h
    exact ⟨fun x h1 h2 h3 => h x h1 (by omega) h3, fun x h1 h2 h3 => h x (by omega) (by omega) h3⟩
  · rintro ⟨h, h'⟩ x h1 h2 h3
    rcases Nat.lt_or_ge x (p + m) with h4 | h4
    · exact h x h1 h4 h3
    · exact h' x h4 (by omega) h3

/-- `read_exact` succeeds iff there is no unreadable byte in the range. -/
theorem flawed_readExactLoop (hd : FlawedStream bad dev G Is At) {k : Disk} {t : Bytes} :
    ∀ (fuel : Nat) {w : W} {d : D} {p : Nat} (buf : Bytes), G w → Is d k t → At w d p →
      p + buf.length ≤ (k.content ++ t).length → buf.length ≤ fuel →
      (Intact bad (k.content ++ t) p buf.length ∧ ∃ s b, readExactLoop dev.read fuel buf (w, d) = (s, .ok b)) ∨
      (¬ Intact bad (k.content ++ t) p buf.length ∧
        ∃ s e, readExactLoop dev.read fuel buf (w, d) = (s, .err e))
  | 0, w, d, p, buf, _, _, _, _, hf => by
    have : buf = [] := List.eq_nil_of_length_eq_zero (by omega)
    subst this
    exact .inl ⟨fun x h1 h2 _ => by simp at h2; omega, _, _, rfl⟩
  | fuel + 1, w, d, p, buf, hG, hI, hA, hp, hf => by
    rw [readExactLoop]
    by_cases hb : buf = []
    · subst hb
      exact .inl ⟨fun x h1 h2 _ => by simp at h2; omega, _, _, rfl⟩
    rw [if_neg hb]
    have hblen : 0 < buf.length := List.length_pos_iff.mpr hb
    rcases hr : dev.read buf (w, d) with ⟨⟨w1, d1⟩, r⟩
    have hno := hd.readNo hG hI hA buf
    have hyes := hd.readOk hG hI hA buf
    rw [hr] at hno hyes
    obtain ⟨hG1, hI1, ⟨j, buf', p', rfl, hs, hA1⟩ | ⟨-, e, rfl⟩⟩ := hd.read hG hI hA buf hr
    case inr =>
      refine .inr ⟨fun h => ?_, _, e, SM.bind_err (h := hr) _⟩
      obtain ⟨a, ha⟩ := hyes h
      cases ha
    have hj := hno j buf' rfl
    rw [SM.bind_ok (h := hr)]
    simp only
    have hle := hs.le
    have hj0 : j ≠ 0 := by
      intro h0
      have := (hs.zero h0).resolve_left hb
      omega
    rw [if_neg hj0]
    have hl1 : (((k.content ++ t).drop p).take j).length = j := by
      rw [List.length_take, List.length_drop]; omega
    have hbl : buf'.length = buf.length := by
      rw [hs.data, List.length_append, hl1, List.length_drop]; omega
    rw [if_neg (by omega)]
    have hmv := hs.moved
    subst hmv
    have hdl : (buf'.drop j).length = buf.length - j := by rw [List.length_drop, hbl]
    rw [intact_split hle]
    rcases flawed_readExactLoop hd fuel (buf'.drop j) hG1 hI1 hA1 (by rw [hdl]; omega) (by rw [hdl]; omega) with
      ⟨h1, s2, b, h2⟩ | ⟨h1, s2, e, h2⟩
    · rw [hdl] at h1
      exact .inl ⟨⟨hj, h1⟩, s2, _, by rw [SM.bind_ok (h := h2)]; rfl⟩
    · rw [hdl] at h1
      exact .inr ⟨fun h => h1 h.2, s2, e, SM.bind_err (h := h2) _⟩

/-- A seek to a place of the device. -/
theorem flawed_seek (hd : FlawedStream bad dev G Is At) {w : W} {d : D} {k : Disk} {t : Bytes}
    (hG : G w) (hI : Is d k t) {p : Nat} (hp : p ≤ k.content.length) :
    ∃ w' d', G w' ∧ Is d' k t ∧ At w' d' p ∧ dev.seek (.start p) (w, d) = ((w', d'), .ok p) := by
  rcases hs : dev.seek (.start p) (w, d) with ⟨⟨w1, d1⟩, r⟩
  have hok := hd.seekOk hG hI p hp
  rw [hs] at hok
  obtain ⟨hG1, hI1, ⟨rfl, hA⟩ | ⟨-, e, rfl⟩⟩ := hd.seek hG hI p hp hs
  · exact ⟨w1, d1, hG1, hI1, hA, rfl⟩
  · obtain ⟨q, hq⟩ := hok
    cases hq

theorem flawed_readExact (hd : FlawedStream bad dev G Is At) {w : W} {d : D} {k : Disk} {t : Bytes} {p : Nat}
    (hG : G w) (hI : Is d k t) (hA : At w d p) (n : Nat) (hn : p + n ≤ k.content.length) :
    ∃ w' d', G w' ∧ Is d' k t ∧
      ((¬ Intact bad k.content p n ∧ ∃ e, readExact dev.read (zeros n) (w, d) = ((w', d'), .err e)) ∨
       (Intact bad k.content p n ∧
        readExact dev.read (zeros n) (w, d) = ((w', d'), .ok (slice k.content p n)))) := by
  have hz : (zeros n).length = n := List.length_replicate
  have hi : Intact bad (k.content ++ t) p n ↔ Intact bad k.content p n :=
    ⟨fun h x h1 h2 h3 => h x h1 h2 (by rw [List.length_append]; omega), fun h x h1 h2 _ => h x h1 h2 (by omega)⟩
  obtain ⟨w', d', hG', hI', h⟩ := streamDev_readExact hd.toStreamDevSpec hG hI hA n hn
  refine ⟨w', d', hG', hI', ?_⟩
  have hl := flawed_readExactLoop hd (zeros n).length (zeros n) hG hI hA
    (by rw [hz, List.length_append]; omega) (Nat.le_refl _)
  rw [show readExactLoop dev.read (zeros n).length (zeros n) = readExact dev.read (zeros n) from rfl, hz, hi] at hl
  rcases h with ⟨-, e, h⟩ | ⟨-, h⟩
  · rcases hl with ⟨-, s, b, hb⟩ | ⟨h1, -⟩
    · rw [h] at hb; cases hb
    · exact .inl ⟨h1, e, h⟩
  · rcases hl with ⟨h1, -⟩ | ⟨-, s, e, hb⟩
    · exact .inr ⟨h1, h⟩
    · rw [h] at hb; cases hb

theorem flawed_probeV1 (hd : FlawedStream bad dev G Is At) {w : W} {d : D} {k : Disk} {t : Bytes}
    (hG : G w) (hI : Is d k t) (off : Nat) (minor : Nat) (rest : List (Nat × Nat))
    (hoff : off + 4096 ≤ k.content.length) :
    ∃ w' d', G w' ∧ Is d' k t ∧
      ((V1At k.content off ∧ Intact bad k.content off 4096 ∧
        MdDevice.probeV1 dev ((minor, off) :: rest) (w, d) =
          ((w', d'), .ok (some ⟨slice k.content off 4096, minor⟩))) ∨
       (¬ (V1At k.content off ∧ Intact bad k.content off 4096) ∧
        MdDevice.probeV1 dev ((minor, off) :: rest) (w, d) = MdDevice.probeV1 dev rest (w', d'))) := by
  rw [probeV1_cons]
  obtain ⟨w1, d1, hG1, hI1, hA, hs⟩ := flawed_seek hd hG hI (p := off) (by omega)
  rw [SM.bind_ok (h := hs)]
  obtain ⟨w2, d2, hG2, hI2, h⟩ := flawed_readExact hd hG1 hI1 hA 4096 hoff
  refine ⟨w2, d2, hG2, hI2, ?_⟩
  rcases h with ⟨hn, e, h⟩ | ⟨hin, h⟩
  · have hr : SuperblockV1.read dev.read minor (w1, d1) = ((w2, d2), .err e) := SM.bind_err (h := h) _
    right
    refine ⟨fun h => hn h.2, ?_⟩
    rw [SM.bind_ok (s' := (w2, d2)) (a := none) (h := by simp only [SM.attempt, hr])]
  · have h0 : slice (slice k.content off 4096) 0 4 = slice k.content off 4 := by
      rw [slice_slice (by decide)]; rfl
    have h4 : slice (slice k.content off 4096) 4 4 = slice k.content (off + 4) 4 :=
      slice_slice (by decide)
    have hv : (SuperblockV1.mk (slice k.content off 4096) minor).valid =
        decide (leNat (slice k.content off 4) = 0xa92b4efc ∧
          leNat (slice k.content (off + 4) 4) = 1) := by
      rw [Bool.decide_and, ← h0, ← h4]; rfl
    by_cases hc : leNat (slice k.content off 4) = 0xa92b4efc ∧
          leNat (slice k.content (off + 4) 4) = 1
    · left
      have hr : SuperblockV1.read dev.read minor (w1, d1) =
          ((w2, d2), .ok ⟨slice k.content off 4096, minor⟩) := by
        unfold SuperblockV1.read
        rw [SM.bind_ok (h := h), hv, decide_eq_true hc]; rfl
      refine ⟨hc, hin, ?_⟩
      rw [SM.bind_ok (s' := (w2, d2)) (a := some ⟨slice k.content off 4096, minor⟩)
        (h := by simp only [SM.attempt, hr])]
      rfl
    · right
      have hr : SuperblockV1.read dev.read minor (w1, d1) = ((w2, d2), .err .invalidData) := by
        unfold SuperblockV1.read
        rw [SM.bind_ok (h := h), hv, decide_eq_false hc]; rfl
      refine ⟨fun h => hc h.1, ?_⟩
      rw [SM.bind_ok (s' := (w2, d2)) (a := none) (h := by simp only [SM.attempt, hr])]

theorem flawed_probeV0 (hd : FlawedStream bad dev G Is At) {w : W} {d : D} {k : Disk} {t : Bytes}
    (hG : G w) (hI : Is d k t) (hlt : k.content.length < U64) (hsz : 65536 ≤ k.content.length) :
    ∃ w' d', G w' ∧ Is d' k t ∧
      ((∃ e off, Place090 k.content.length off ∧ V0At k.content off e ∧ Intact bad k.content off 4096 ∧
          MdDevice.probeV0 dev k.content.length (w, d) =
          ((w', d'), .ok (some (SuperblockV0.ofView e (slice k.content off 4096))))) ∨
       ((∀ off e, Place090 k.content.length off → ¬ (V0At k.content off e ∧ Intact bad k.content off 4096)) ∧
          MdDevice.probeV0 dev k.content.length (w, d) = ((w', d'), .ok none))) := by
  unfold MdDevice.probeV0
  rw [if_pos hsz, v0Probe_eq hlt]
  have hpl := place090 hsz
  generalize k.content.length / 65536 * 65536 - 65536 = off at hpl
  have hle : off + 65536 ≤ k.content.length := hpl.2.1
  obtain ⟨w1, d1, hG1, hI1, hA, hs⟩ := flawed_seek hd hG hI (p := off) (by omega)
  rw [SM.bind_ok (h := hs)]
  obtain ⟨w2, d2, hG2, hI2, h⟩ := flawed_readExact hd hG1 hI1 hA 4096 (by omega)
  refine ⟨w2, d2, hG2, hI2, ?_⟩
  rcases h with ⟨hn, e, h⟩ | ⟨hin, h⟩
  · have hr : SuperblockV0.read dev.read (w1, d1) = ((w2, d2), .err e) := SM.bind_err (h := h) _
    right
    refine ⟨fun o e hp hv => ?_, by simp only [SM.attempt, hr]⟩
    rw [place090_unique hp hpl] at hv
    exact hn hv.2
  · have hr : SuperblockV0.read dev.read (w1, d1) =
        (if (SuperblockV0.decode (slice k.content off 4096)).valid = true then
          ((w2, d2), .ok (SuperblockV0.decode (slice k.content off 4096)))
        else ((w2, d2), .err .invalidData)) := by
      unfold SuperblockV0.read
      rw [show v0Layout.size = 4096 from rfl, SM.bind_ok (h := h)]
      split <;> rfl
    by_cases hc : (SuperblockV0.decode (slice k.content off 4096)).valid = true
    · left
      obtain ⟨e, he⟩ := (v0_decode_valid_iff _).mpr hc
      refine ⟨e, off, hpl, he, hin, ?_⟩
      rw [if_pos hc, v0_decode_of_acceptable he] at hr
      simp only [SM.attempt, hr]
    · right
      rw [if_neg hc] at hr
      refine ⟨fun off' e hp hv => ?_, by simp only [SM.attempt, hr]⟩
      rw [place090_unique hp hpl] at hv
      exact hc ((v0_decode_valid_iff _).mp ⟨e, hv.1⟩)

theorem flawed_findSuperblock (hd : FlawedStream bad dev G Is At) {w : W} {d : D} {k : Disk} {t : Bytes}
    (hG : G w) (hI : Is d k t) :
    ∃ w' d' sb, G w' ∧ Is d' k t ∧
      MdDevice.findSuperblock dev k.content.length (w, d) = ((w', d'), .ok sb) ∧
      ExpectedAmong (fun off => Intact bad k.content off 4096) k.content sb := by
  have hwf := hd.toDev.wf ⟨t, hI⟩
  have hlt : k.content.length < U64 := by rw [hwf.len]; exact hwf.size_lt
  rcases Nat.lt_or_ge k.content.length 12288 with hs | hs
  · refine ⟨w, d, .tooSmall, hG, hI, ?_, .tooSmall hs⟩
    unfold MdDevice.findSuperblock
    rw [if_pos hs]; rfl
  rw [findSuperblock_ge dev hs, v1Probes_eq hlt]
  have hp := place10 hs
  generalize (k.content.length / 512 - 16) / 8 * 4096 = off at hp
  have hp2 := hp.2.1
  obtain ⟨w1, d1, hG1, hI1, ⟨h1, r1, h⟩ | ⟨h1, h⟩⟩ :=
    flawed_probeV1 hd hG hI 4096 2 [(1, 0), (0, off)] (by omega)
  · exact ⟨w1, d1, _, hG1, hI1, by rw [SM.bind_ok (h := h)]; rfl, .v12 hs h1 r1⟩
  obtain ⟨w2, d2, hG2, hI2, ⟨h2, r2, h'⟩ | ⟨h2, h'⟩⟩ := flawed_probeV1 hd hG1 hI1 0 1 [(0, off)] (by omega)
  · exact ⟨w2, d2, _, hG2, hI2, by rw [SM.bind_ok (h := h.trans h')]; rfl, .v11 hs h1 h2 r2⟩
  replace h := h.trans h'
  clear h'
  obtain ⟨w3, d3, hG3, hI3, ⟨h3, r3, h'⟩ | ⟨h3, h'⟩⟩ := flawed_probeV1 hd hG2 hI2 off 0 [] (by omega)
  · exact ⟨w3, d3, _, hG3, hI3, by rw [SM.bind_ok (h := h.trans h')]; rfl, .v10 hs h1 h2 hp h3 r3⟩
  replace h := h.trans h'
  rw [SM.bind_ok (a := none) (s' := (w3, d3)) (h := h)]
  simp only
  rcases Nat.lt_or_ge k.content.length 65536 with hs0 | hs0
  · refine ⟨w3, d3, .missing, hG3, hI3, ?_, .missing hs h1 h2 hp h3 ?_⟩
    · rw [SM.bind_ok (a := none) (s' := (w3, d3)) (h := by
        unfold MdDevice.probeV0; rw [if_neg (by omega)]; rfl)]
      rfl
    · rintro o e ⟨-, h, -⟩
      omega
  obtain ⟨w4, d4, hG4, hI4, ⟨e, o, ho, hv, r4, h'⟩ | ⟨hn, h'⟩⟩ := flawed_probeV0 hd hG3 hI3 hlt hs0
  · exact ⟨w4, d4, _, hG4, hI4, by rw [SM.bind_ok (h := h')]; rfl, .v090 hs h1 h2 hp h3 ho hv r4⟩
  · exact ⟨w4, d4, _, hG4, hI4, by rw [SM.bind_ok (h := h')]; rfl, .missing hs h1 h2 hp h3 hn⟩

end
end MdRecover
