import Verif.Spec.Ext4Fs
import Verif.Spec.Volume
import Verif.Lemmas.Volume
import Verif.Lemmas.Ext4Superblock
import Verif.Props.Ext4Superblock

namespace MdRecover
variable [Build]
open MdSpec

namespace Ext4Fs

omit [Build] in
theorem containsUnknownBits_iff {v : Nat} (hv : v < U32) :
    containsUnknownBits v = false ↔ ∀ i, v / 2 ^ i % 2 = 1 → i ≠ 5 ∧ i ≠ 11 ∧ i < 17 := by
  have hk : ∀ i, i < 32 → (knownIncompatible.contains i = true ↔ i ≠ 5 ∧ i ≠ 11 ∧ i < 17) := by
    decide
  have hb : ∀ i, v.testBit i = true ↔ v / 2 ^ i % 2 = 1 := by
    intro i
    rw [Nat.testBit_eq_decide_div_mod_eq, decide_eq_true_eq]
  unfold containsUnknownBits
  rw [List.any_eq_false]
  constructor
  · intro h i hi
    have h32 : i < 32 := by
      by_contra hc
      have : v / 2 ^ i = 0 := by
        apply Nat.div_eq_of_lt
        have h32 : 32 ≤ i := by omega
        exact Nat.lt_of_lt_of_le hv (Nat.pow_le_pow_right (n := 2) (by decide) h32)
      rw [this] at hi; omega
    have := h i (List.mem_range.2 h32)
    rw [← hk i h32]
    simp only [(hb i).2 hi, Bool.true_and, Bool.not_eq_true'] at this
    simpa using this
  · intro h i hi
    have h32 := List.mem_range.1 hi
    simp only [Bool.and_eq_true, Bool.not_eq_true', not_and, Bool.not_eq_false]
    intro ht
    exact (hk i h32).2 (h i ((hb i).1 ht))

theorem unsupported_iff (sb : Ext4Superblock) (hv : sb.valid = .ok true) :
    unsupported sb = false ↔ Ext4Readable sb.bytes := by
  have h1 := Ext4Superblock.get_at (f := .blocksPerGroup) (off := 0x20) (w := 4) (by decide +kernel) sb
  have h2 := Ext4Superblock.get_at (f := .inodesPerGroup) (off := 0x28) (w := 4) (by decide +kernel) sb
  have h3 := Ext4Superblock.get_at (f := .groupDescriptorSize) (off := 0xfe) (w := 2) (by decide +kernel) sb
  have h4 := Ext4Superblock.get_at (f := .creatorOs) (off := 0x48) (w := 4) (by decide +kernel) sb
  have h5 := Ext4Superblock.get_at (f := .incompatibleFeatures) (off := 0x60) (w := 4) (by decide +kernel) sb
  have h6 : ∀ n, (CreatorOs.ofNat n = .linux) ↔ n = 0 := by
    intro n
    rcases n with _ | _ | _ | _ | _ | n <;> simp [CreatorOs.ofNat]
  have h7 : le sb.bytes 0x60 4 < U32 := le_lt _ _ _
  unfold unsupported
  simp only [Bool.or_eq_false_iff, beq_eq_false_iff_ne, bne_eq_false_iff_eq, Bool.not_eq_false',
    Ext4Superblock.blocksPerGroup, Ext4Superblock.inodesPerGroup,
    Ext4Superblock.groupDescriptorSize, Ext4Superblock.creatorOs,
    Ext4Superblock.incompatibleFeatures, h1, h2, h3, h4, h5, h6, hasBit_iff, decide_eq_true_eq,
    containsUnknownBits_iff h7]
  constructor
  · rintro ⟨⟨⟨⟨⟨a, b⟩, c⟩, d⟩, e⟩, f⟩
    exact ⟨sb.valid_iff.1 hv, a, c, b, d, e, f⟩
  · rintro ⟨-, a, c, b, d, e, f⟩
    exact ⟨⟨⟨⟨⟨a, b⟩, c⟩, d⟩, e⟩, f⟩

section
variable {W D : Type} {F : Prop} {dev : StreamDev W D} {G : W → Prop} {Is : D → Bytes → Prop}
  {At : W → D → Nat → Prop}

omit [Build] in
theorem readGroups_spec (hv : VolumeSpec F dev G Is At) {c : Bytes} {size : Nat} (hs : size ≠ 0) :
    ∀ (n : Nat) {w : W} {d : D} {p : Nat}, G w → Is d c → At w d p →
      ∃ w' d' r, readGroups dev size n (w, d) = ((w', d'), r) ∧ G w' ∧ Is d' c ∧
        (((F ∨ c.length < p + n * size) ∧ ∃ e, r = .err e) ∨
         ((n = 0 ∨ p + n * size ≤ c.length) ∧
           r = .ok ((List.range n).map fun i => BlockGroup.new (slice c (p + i * size) size))))
  | 0, w, d, p, hG, hI, hA => ⟨w, d, _, rfl, hG, hI, .inr ⟨.inl rfl, rfl⟩⟩
  | n + 1, w, d, p, hG, hI, hA => by
    have hz : (zeros size).length = size := List.length_replicate
    have hne : zeros size ≠ [] := by
      intro h; rw [h] at hz; simp at hz; omega
    obtain ⟨w1, d1, hG1, hI1, h⟩ := volume_readExact hv hG hI hA (zeros size)
    rw [hz] at h
    have hmul : (n + 1) * size = n * size + size := Nat.succ_mul n size
    unfold readGroups
    rcases h with ⟨hF, e, h⟩ | ⟨hl, -, h⟩ | ⟨h1, h2, h3⟩
    · exact ⟨w1, d1, _, SM.bind_err (h := h) _, hG1, hI1, .inl ⟨.inl hF, e, rfl⟩⟩
    · exact ⟨w1, d1, _, SM.bind_err (h := h) _, hG1, hI1, .inl ⟨.inr (by omega), _, rfl⟩⟩
    · rw [SM.bind_ok (h := h3)]
      have hp := h1.resolve_left hne
      obtain ⟨w2, d2, r, h4, hG2, hI2, h5⟩ := readGroups_spec hv hs n hG1 hI1 h2
      rcases h5 with ⟨hc, e, rfl⟩ | ⟨h6, rfl⟩
      · refine ⟨w2, d2, _, SM.bind_err (h := h4) _, hG2, hI2, .inl ⟨?_, e, rfl⟩⟩
        rcases hc with hc | hc
        · exact .inl hc
        · exact .inr (by omega)
      · refine ⟨w2, d2, _, SM.bind_ok (h := h4) _, hG2, hI2, .inr ⟨.inr ?_, ?_⟩⟩
        · rcases h6 with rfl | h6
          · omega
          · omega
        · rw [List.range_succ_eq_map]
          simp only [List.map_cons, List.map_map, Nat.zero_mul, Nat.add_zero, Function.comp_def]
          show Res.ok _ = _
          congr 2
          apply List.map_congr_left
          intro i _
          rw [show p + size + i * size = p + (i + 1) * size by rw [Nat.succ_mul]; omega]

theorem sb_read_spec (hv : VolumeSpec F dev G Is At) {c : Bytes} {w : W} {d : D} {p : Nat}
    (hG : G w) (hI : Is d c) (hA : At w d p) :
    ∃ w' d' r, Ext4Superblock.read dev.read (w, d) = ((w', d'), r) ∧ G w' ∧ Is d' c ∧
      (((F ∨ c.length < p + 1024 ∨ ¬ Ext4SbOk (slice c p 1024)) ∧ ∃ e, r = .err e) ∨
       (p + 1024 ≤ c.length ∧ Ext4SbOk (slice c p 1024) ∧ r = .ok ⟨slice c p 1024⟩)) := by
  have hsz : ext4SbLayout.size = 1024 := by decide +kernel
  have hz : (zeros 1024).length = 1024 := List.length_replicate
  have hne : zeros 1024 ≠ [] := by intro h; rw [h] at hz; simp at hz
  obtain ⟨w1, d1, hG1, hI1, h⟩ := volume_readExact hv hG hI hA (zeros 1024)
  rw [hz] at h
  unfold Ext4Superblock.read
  rw [hsz]
  generalize zeros 1024 = z at *
  rcases h with ⟨hF, e, h⟩ | ⟨hl, -, h⟩ | ⟨h1, h2, h3⟩
  · exact ⟨w1, d1, _, SM.bind_err (h := h) _, hG1, hI1, .inl ⟨.inl hF, e, rfl⟩⟩
  · exact ⟨w1, d1, _, SM.bind_err (h := h) _, hG1, hI1, .inl ⟨.inr (.inl hl), _, rfl⟩⟩
  · rw [SM.bind_ok (h := h3)]
    have hp := h1.resolve_left hne
    obtain ⟨v, hval⟩ := (Ext4Superblock.mk (slice c p 1024)).valid_some
    rw [hval]
    have hl : (SM.lift (.ok v) : SM (W × D) Bool) (w1, d1) = ((w1, d1), .ok v) := rfl
    rw [SM.bind_ok (h := hl)]
    cases v with
    | true =>
      exact ⟨w1, d1, _, rfl, hG1, hI1, .inr ⟨hp, (Ext4Superblock.valid_iff _).1 hval, rfl⟩⟩
    | false =>
      refine ⟨w1, d1, _, rfl, hG1, hI1, .inl ⟨.inr (.inr ?_), _, rfl⟩⟩
      intro hok
      have := (Ext4Superblock.valid_iff ⟨slice c p 1024⟩).2 hok
      rw [hval] at this
      cases this

theorem openBody_spec (hv : VolumeSpec F dev G Is At) {c : Bytes} {w : W} {d : D} (hG : G w)
    (hI : Is d c) (hb : 2048 ≤ c.length → Ext4Readable (sbOf c) → TableChecked c) :
    ∃ w' d' r, openBody dev (w, d) = ((w', d'), r) ∧ G w' ∧ Is d' c ∧
      ((∃ sb groups, r = .ok (sb, groups) ∧ Opened Is c ⟨d', sb, groups⟩ ∧ ¬ OpenPanics c) ∨
       ((F ∨ (¬ Ext4Openable c ∧ ¬ OpenPanics c)) ∧ ∃ e, r = .err e) ∨
       (OpenMayPanic c ∧ r = .panic)) := by
  unfold openBody
  rcases hs : dev.seek (.start 1024) (w, d) with ⟨⟨w1, d1⟩, r1⟩
  obtain ⟨hG1, hI1, h1⟩ := hv.seek hG hI 1024 (by omega) hs
  rcases h1 with ⟨q, rfl, hA1, hq1, hq2⟩ | ⟨h1, e, rfl⟩
  rotate_left
  · refine ⟨w1, d1, _, SM.bind_err (h := hs) _, hG1, hI1, .inr (.inl ⟨?_, e, rfl⟩)⟩
    rcases h1 with h1 | h1
    · exact .inl h1
    · exact .inr ⟨fun h => by have := h.long; omega, fun h => by have := h.1; omega⟩
  rw [SM.bind_ok (h := hs)]
  obtain ⟨w2, d2, r2, h2, hG2, hI2, h3⟩ := sb_read_spec hv hG1 hI1 hA1
  rcases h3 with ⟨h3, e, rfl⟩ | ⟨hp, hok, rfl⟩
  · refine ⟨w2, d2, _, SM.bind_err (h := h2) _, hG2, hI2, .inr (.inl ⟨?_, e, rfl⟩)⟩
    by_cases hlong : 2048 ≤ c.length
    · have hq := hq1 (by omega)
      subst hq
      rcases h3 with h3 | h3 | h3
      · exact .inl h3
      · omega
      · exact .inr ⟨fun h => h3 h.readable.ok, fun h => h3 h.2.1⟩
    · exact .inr ⟨fun h => hlong h.long, fun h => hlong h.1⟩
  have hq : q = 1024 := by
    by_contra hne
    have : ¬ 1024 ≤ c.length := fun h => hne (hq1 h)
    have := hq2 (by omega)
    omega
  subst hq
  have hlong : 2048 ≤ c.length := hp
  rw [SM.bind_ok (h := h2)]
  change Ext4SbOk (sbOf c) at hok
  obtain ⟨sb, hsb⟩ : ∃ sb : Ext4Superblock, sb = ⟨slice c 1024 1024⟩ := ⟨_, rfl⟩
  have hsbb : sb.bytes = sbOf c := by rw [hsb]; rfl
  rw [← hsb]
  have hval : sb.valid = .ok true := sb.valid_iff.2 (hsbb ▸ hok)
  have hbpg : sb.blocksPerGroup = le (sbOf c) 0x20 4 := by
    rw [← hsbb]; exact Ext4Superblock.get_at (by decide +kernel) sb
  have hds : sb.groupDescriptorSize = le (sbOf c) 0xfe 2 := by
    rw [← hsbb]; exact Ext4Superblock.get_at (by decide +kernel) sb
  have hfd : sb.firstDataBlock = le (sbOf c) 0x14 4 := by
    rw [← hsbb]; exact Ext4Superblock.get_at (by decide +kernel) sb
  have hblocks : sb.blocksCount = blocksOf (sbOf c) := by
    rw [← hsbb]; exact (C56_wide sb).1
  have hbs : sb.blockSizeBytes = .ok (blockSizeOf (sbOf c)) := by
    rw [← hsbb]; exact (C55_sizes sb hval).1
  by_cases h0 : le (sbOf c) 0x20 4 = 0
  · have hdiv : (SM.lift (divCeilP sb.blocksCount sb.blocksPerGroup) : SM (W × D) Nat) (w2, d2)
        = ((w2, d2), .panic) := by
      rw [SM.lift_apply, divCeilP, hbpg, if_pos h0]
    exact ⟨w2, d2, _, SM.bind_panic (h := hdiv) _, hG2, hI2, .inr (.inr ⟨⟨hlong, hok, .inl h0⟩, rfl⟩)⟩
  have hdiv : (SM.lift (divCeilP sb.blocksCount sb.blocksPerGroup) : SM (W × D) Nat) (w2, d2)
      = ((w2, d2), .ok (groupsOf (sbOf c))) := by
    rw [SM.lift_apply, divCeilP, hbpg, if_neg h0, hblocks]; rfl
  rw [SM.bind_ok (h := hdiv)]
  by_cases hu : unsupported sb = true
  · rw [if_pos hu]
    refine ⟨w2, d2, _, rfl, hG2, hI2, .inr (.inl ⟨.inr ?_, _, rfl⟩)⟩
    have hnr : ¬ Ext4Readable (sbOf c) := by
      intro h
      have := (unsupported_iff sb hval).2 (hsbb ▸ h)
      rw [hu] at this
      cases this
    exact ⟨fun h => hnr h.readable, fun h => h.2.2.elim h0 (fun h => hnr h.1)⟩
  have hread : Ext4Readable (sbOf c) := by
    rw [← hsbb]; exact (unsupported_iff sb hval).1 (by simpa using hu)
  rw [if_neg hu, hbs]
  have hl : (SM.lift (.ok (blockSizeOf (sbOf c))) : SM (W × D) Nat) (w2, d2)
      = ((w2, d2), .ok (blockSizeOf (sbOf c))) := rfl
  rw [SM.bind_ok (h := hl)]
  by_cases hov : groupTableOf (sbOf c) < U64
  rotate_left
  · have hm : (SM.lift (mul64 (sb.firstDataBlock + 1) (blockSizeOf (sbOf c))) : SM (W × D) Nat)
        (w2, d2) = ((w2, d2), .panic) := by
      rw [SM.lift_apply, mul64, hfd]
      exact congrArg _ ((if_neg hov).trans (if_pos ((hb hlong hread).resolve_right hov)))
    exact ⟨w2, d2, _, SM.bind_panic (h := hm) _, hG2, hI2,
      .inr (.inr ⟨⟨hlong, hok, .inr ⟨hread, .inl (by omega)⟩⟩, rfl⟩)⟩
  have hm : (SM.lift (mul64 (sb.firstDataBlock + 1) (blockSizeOf (sbOf c))) : SM (W × D) Nat)
      (w2, d2) = ((w2, d2), .ok (groupTableOf (sbOf c))) := by
    rw [SM.lift_apply, mul64, hfd]; exact congrArg _ (if_pos hov)
  rw [SM.bind_ok (h := hm)]
  rcases hs3 : dev.seek (.start (groupTableOf (sbOf c))) (w2, d2) with ⟨⟨w3, d3⟩, r3⟩
  obtain ⟨hG3, hI3, h4⟩ := hv.seek hG2 hI2 _ hov hs3
  rcases h4 with ⟨q, rfl, hA3, hq1, hq2⟩ | ⟨h4, e, rfl⟩
  rotate_left
  · refine ⟨w3, d3, _, SM.bind_err (h := hs3) _, hG3, hI3, .inr (.inl ⟨?_, e, rfl⟩)⟩
    rcases h4 with h4 | h4
    · exact .inl h4
    · refine .inr ⟨fun h => by have := h.fits; omega, fun h => ?_⟩
      rcases h.2.2 with h | ⟨-, h | h⟩
      · exact h0 h
      · omega
      · have := h.1; omega
  rw [SM.bind_ok (h := hs3)]
  have hgs : groupLayout.size = 60 := by decide +kernel
  rw [hgs]
  by_cases hcap : groupsOf (sbOf c) * 60 < 2 ^ 63
  rotate_left
  · have hw : (SM.lift (withCapacity (groupsOf (sbOf c)) 60) : SM (W × D) Unit) (w3, d3)
        = ((w3, d3), .panic) := by
      rw [SM.lift_apply, withCapacity, if_neg hcap]
    exact ⟨w3, d3, _, SM.bind_panic (h := hw) _, hG3, hI3,
      .inr (.inr ⟨⟨hlong, hok, .inr ⟨hread, .inr (by omega)⟩⟩, rfl⟩)⟩
  have hw : (SM.lift (withCapacity (groupsOf (sbOf c)) 60) : SM (W × D) Unit) (w3, d3)
      = ((w3, d3), .ok ()) := by
    rw [SM.lift_apply, withCapacity, if_pos hcap]
  rw [SM.bind_ok (h := hw), hds]
  obtain ⟨w4, d4, r4, h5, hG4, hI4, h6⟩ :=
    readGroups_spec hv hread.descSize (groupsOf (sbOf c)) hG3 hI3 hA3
  rcases h6 with ⟨h6, e, rfl⟩ | ⟨h6, rfl⟩
  · refine ⟨w4, d4, _, SM.bind_err (h := h5) _, hG4, hI4, .inr (.inl ⟨?_, e, rfl⟩)⟩
    rcases h6 with h6 | h6
    · exact .inl h6
    · refine .inr ⟨fun h => ?_, fun h => ?_⟩
      · have hf := h.fits
        have := hq1 (by omega)
        subst this
        omega
      · rcases h.2.2 with h | ⟨-, h | h⟩
        · exact h0 h
        · omega
        · have := h.2; omega
  · refine ⟨w4, d4, _, SM.bind_ok (h := h5) _, hG4, hI4, .inl ⟨_, _, rfl, ?_, fun h => ?_⟩⟩
    rotate_left
    · rcases h.2.2 with h | ⟨-, h | h⟩
      · exact h0 h
      · omega
      · have := h.2; omega
    by_cases hn : groupsOf (sbOf c) = 0
    · refine ⟨hI4, hlong, hread, .inl hn, hsbb, ?_⟩
      rw [hn]; rfl
    · have h6 := h6.resolve_left hn
      have hpos : 0 < groupsOf (sbOf c) * le (sbOf c) 0xfe 2 :=
        Nat.mul_pos (by omega) (Nat.pos_of_ne_zero hread.descSize)
      have hq : q = groupTableOf (sbOf c) := by
        by_contra hne
        have : ¬ groupTableOf (sbOf c) ≤ c.length := fun h => hne (hq1 h)
        have := hq2 (by omega)
        omega
      subst hq
      exact ⟨hI4, hlong, hread, .inr h6, hsbb, rfl⟩

theorem open_spec_readable (hv : VolumeSpec F dev G Is At) {c : Bytes} {w : W} {d : D} (hG : G w)
    (hI : Is d c) (hb : 2048 ≤ c.length → Ext4Readable (sbOf c) → TableChecked c) :
    ∃ w' r, «open» dev d w = (w', r) ∧ G w' ∧
      ((∃ fs, r = .ok fs ∧ Opened Is c fs ∧ ¬ OpenPanics c) ∨
       ((F ∨ (¬ Ext4Openable c ∧ ¬ OpenPanics c)) ∧ ∃ e, r = .err e) ∨
       (OpenMayPanic c ∧ r = .panic)) := by
  obtain ⟨w', d', r, h, hG', hI', h1⟩ := openBody_spec hv hG hI hb
  unfold «open» SM.withLocal
  rcases h1 with ⟨sb, groups, rfl, ho⟩ | ⟨hc, e, rfl⟩ | ⟨hp, rfl⟩
  · rw [SM.bind_ok (h := h)]
    exact ⟨w', _, rfl, hG', .inl ⟨_, rfl, ho⟩⟩
  · rw [SM.bind_err (h := h)]
    exact ⟨w', _, rfl, hG', .inr (.inl ⟨hc, e, rfl⟩)⟩
  · rw [SM.bind_panic (h := h)]
    exact ⟨w', _, rfl, hG', .inr (.inr ⟨hp, rfl⟩)⟩

theorem open_spec (hv : VolumeSpec F dev G Is At) {c : Bytes} {w : W} {d : D} (hG : G w)
    (hI : Is d c) (hb : TableChecked c) :
    ∃ w' r, «open» dev d w = (w', r) ∧ G w' ∧
      ((∃ fs, r = .ok fs ∧ Opened Is c fs ∧ ¬ OpenPanics c) ∨
       ((F ∨ (¬ Ext4Openable c ∧ ¬ OpenPanics c)) ∧ ∃ e, r = .err e) ∨
       (OpenMayPanic c ∧ r = .panic)) :=
  open_spec_readable hv hG hI fun _ _ => hb

end
end Ext4Fs
end MdRecover
