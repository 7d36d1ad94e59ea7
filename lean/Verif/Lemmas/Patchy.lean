import Verif.Spec.Patchy
import Verif.Lemmas.SeekableVolume
import Verif.Lemmas.Ext4DirectoryRun
import Verif.Lemmas.Ext4Sim

/-! A volume some bytes of which cannot be read does what a volume without such bytes does, as long as
nothing else is read. -/

namespace MdRecover
open MdSpec

theorem SM.bind_congr {S α β : Type} {m1 m2 : SM S α} {k1 k2 : α → SM S β} {s : S} (h : m1 s = m2 s)
    (hk : ∀ a s', m2 s = (s', .ok a) → k1 a s' = k2 a s') : (m1 >>= k1) s = (m2 >>= k2) s := by
  rcases hm : m2 s with ⟨s', a | e | _⟩
  · rw [hm] at h
    rw [SM.bind_ok (h := h), SM.bind_ok (h := hm), hk a s' hm]
  · rw [hm] at h
    rw [SM.bind_err (h := h), SM.bind_err (h := hm)]
  · rw [hm] at h
    rw [SM.bind_panic (h := h), SM.bind_panic (h := hm)]

theorem SM.zoom_congr {S T α : Type} {get : S → T} {put : S → T → S} {m1 m2 : SM T α} {s : S}
    (h : m1 (get s) = m2 (get s)) : SM.zoom get put m1 s = SM.zoom get put m2 s := by
  unfold SM.zoom
  rw [h]

theorem _root_.MdSpec.Intact.mono {bad : Nat → Prop} {c : Bytes} {p len q m : Nat} (h : Intact bad c p len)
    (h1 : p ≤ q) (h2 : q + m ≤ p + len) : Intact bad c q m :=
  fun x hx1 hx2 hx3 => h x (by omega) (by omega) hx3

theorem _root_.MdSpec.Intact.beyond {bad : Nat → Prop} {c : Bytes} {p len : Nat} (h : c.length ≤ p) :
    Intact bad c p len := fun x hx1 _ hx3 => by omega

section
variable {W D : Type}

/-- `dev` does what `dev'` does where nothing is `bad`, and `dev'` never fails. -/
structure Agree (bad : Nat → Prop) (c : Bytes) (dev dev' : StreamDev W D) (G : W → Prop)
    (Is : D → Bytes → Prop) (At : W → D → Nat → Prop) : Prop where
  perfect : VolumeSpec False dev' G Is At
  seek : dev.seek = dev'.seek
  tryClone : dev.tryClone = dev'.tryClone
  read : ∀ {w d p}, G w → Is d c → At w d p → ∀ buf, buf ≠ [] → Intact bad c p buf.length →
    dev.read buf (w, d) = dev'.read buf (w, d)

open Classical in
/-- The device that returns what the volume holds where `dev` fails. -/
noncomputable def patched (dev : StreamDev W D) (At : W → D → Nat → Prop) (c : Bytes) : StreamDev W D :=
  { dev with
    read := fun buf s =>
      match dev.read buf s with
      | (s', .err e) =>
        if h : ∃ p, At s.1 s.2 p then
          ((dev.seek (.start (h.choose + min buf.length (c.length - h.choose))) s').1,
            .ok (min buf.length (c.length - h.choose),
              (c.drop h.choose).take (min buf.length (c.length - h.choose)) ++
                buf.drop (min buf.length (c.length - h.choose))))
        else (s', .err e)
      | x => x }

theorem patched_read_ok {dev : StreamDev W D} {At : W → D → Nat → Prop} {c : Bytes} {buf : Bytes}
    {s : W × D} {a : Nat × Bytes} (h : (dev.read buf s).2 = .ok a) :
    (patched dev At c).read buf s = dev.read buf s := by
  rcases hr : dev.read buf s with ⟨s', r⟩
  rw [hr] at h
  simp only at h
  subst h
  simp only [patched, hr]

theorem _root_.MdSpec.PatchyVolume.agree {bad : Nat → Prop} {lim : Nat → Nat} {dev : StreamDev W D}
    {G : W → Prop} {Is : D → Bytes → Prop} {At : W → D → Nat → Prop}
    (hv : PatchyVolume bad lim dev G Is At) {c : Bytes} (hc : c.length < U64) (hl : c.length ≤ lim c.length) :
    Agree bad c dev (patched dev At c) G (fun d c' => c' = c ∧ Is d c) At where
  seek := rfl
  tryClone := rfl
  read := by
    rintro w d p hG ⟨-, hI⟩ hA buf hb hi
    obtain ⟨a, ha⟩ := hv.readOk hG hI hA buf (.inl hb) hi
    exact (patched_read_ok ha).symm
  perfect := by
    refine ⟨?_, ?_, ?_⟩
    · rintro w d c' hG ⟨hcc, hI⟩ p hp w' d' r h
      obtain rfl : c = c' := hcc.symm
      have h : dev.seek (.start p) (w, d) = ((w', d'), r) := h
      obtain ⟨hG', hI', h1⟩ := hv.seek hG hI p hp h
      refine ⟨hG', ⟨rfl, hI'⟩, ?_⟩
      rcases h1 with h1 | ⟨-, e, rfl⟩
      · exact .inl h1
      · refine .inr ⟨.inr ?_, e, rfl⟩
        by_contra hlt
        obtain ⟨q, hq⟩ := hv.seekOk hG hI p hp (by omega)
        rw [h] at hq
        cases hq
    · rintro w d c' p hG ⟨hcc, hI⟩ hA buf w' d' r h
      obtain rfl : c = c' := hcc.symm
      rcases hr : dev.read buf (w, d) with ⟨⟨w1, d1⟩, r1⟩
      obtain ⟨hG1, hI1, h1⟩ := hv.read hG hI hA buf hr
      rcases h1 with ⟨j, buf', p', rfl, hs, hA'⟩ | ⟨-, e, rfl⟩
      · rw [patched_read_ok (a := (j, buf')) (by rw [hr]), hr] at h
        cases h
        exact ⟨hG1, ⟨rfl, hI1⟩, .inl ⟨j, buf', p', rfl, hs, hA'⟩⟩
      · have hex : ∃ p, At w d p := ⟨p, hA⟩
        have hch : hex.choose = p := hv.position hex.choose_spec hA
        have hlt : p < c.length := by
          by_contra hle
          obtain ⟨a, ha⟩ := hv.readOk hG hI hA buf (.inr (by omega)) (.beyond (by omega))
          rw [hr] at ha
          cases ha
        simp only [patched, hr] at h
        rw [dif_pos hex] at h
        simp only [hch] at h
        rcases hs : dev.seek (.start (p + min buf.length (c.length - p))) (w1, d1) with ⟨⟨w2, d2⟩, r2⟩
        rw [hs] at h
        simp only at h
        obtain ⟨⟨rfl, rfl⟩, rfl⟩ : (w2 = w' ∧ d2 = d') ∧ _ := by
          obtain ⟨h1, h2⟩ := Prod.mk.inj h
          exact ⟨Prod.mk.inj h1, h2⟩
        obtain ⟨hG2, hI2, h2⟩ := hv.seek hG1 hI1 _ (by omega) hs
        obtain ⟨q, hq⟩ := hv.seekOk hG1 hI1 (p + min buf.length (c.length - p)) (by omega) (by omega)
        rw [hs] at hq
        simp only at hq
        subst hq
        rcases h2 with ⟨q', h3, hA2, h4, -⟩ | ⟨-, e, h3⟩
        · cases h3
          have h4 := h4 (by omega)
          refine ⟨hG2, ⟨rfl, hI2⟩, .inl ⟨_, _, q, rfl, ⟨Nat.min_le_left _ _, h4, rfl, fun _ => by omega, ?_⟩, hA2⟩⟩
          intro h0
          left
          exact List.eq_nil_of_length_eq_zero (by omega)
        · cases h3
    · rintro w d c' hG ⟨hcc, hI⟩ w' r h
      obtain rfl : c = c' := hcc.symm
      have h : dev.tryClone d w = (w', r) := h
      obtain ⟨hG', h1⟩ := hv.tryClone hG hI h
      refine ⟨hG', ?_⟩
      rcases h1 with ⟨d', rfl, hd⟩ | ⟨-, e, rfl⟩
      · exact .inl ⟨d', rfl, rfl, hd⟩
      · obtain ⟨d', hd⟩ := hv.cloneOk hG hI
        rw [h] at hd
        cases hd

end

namespace Agree
variable {W D : Type} {bad : Nat → Prop} {c : Bytes} {dev dev' : StreamDev W D} {G : W → Prop}
  {Is : D → Bytes → Prop} {At : W → D → Nat → Prop}

/-- `read_exact` of intact bytes. -/
theorem readExactLoop (h : Agree bad c dev dev' G Is At) :
    ∀ (fuel : Nat) {w : W} {d : D} {p : Nat} (buf : Bytes), G w → Is d c → At w d p →
      Intact bad c p buf.length →
      MdRecover.readExactLoop dev.read fuel buf (w, d) = MdRecover.readExactLoop dev'.read fuel buf (w, d)
  | 0, w, d, p, buf, hG, hI, hA, hi => by rw [MdRecover.readExactLoop, MdRecover.readExactLoop]
  | fuel + 1, w, d, p, buf, hG, hI, hA, hi => by
    rw [MdRecover.readExactLoop, MdRecover.readExactLoop]
    by_cases hb : buf = []
    · rw [if_pos hb, if_pos hb]
    rw [if_neg hb, if_neg hb]
    refine SM.bind_congr (h.read hG hI hA buf hb hi) ?_
    rintro ⟨j, buf'⟩ ⟨w', d'⟩ hr
    obtain ⟨hG', hI', h1⟩ := h.perfect.read hG hI hA buf hr
    rcases h1 with ⟨_, _, p', h1, hs, hA'⟩ | ⟨hF, -⟩
    · cases h1
      by_cases hj : j = 0
      · simp only [if_pos hj]
      simp only [if_neg hj]
      by_cases hbl : buf'.length < j
      · rw [if_pos hbl, if_pos hbl]
      rw [if_neg hbl, if_neg hbl]
      refine SM.bind_congr (readExactLoop h fuel _ hG' hI' hA' ?_) fun _ _ _ => rfl
      have := hs.le
      have hin := hs.inside (by omega)
      have hlen : buf'.length = buf.length := by
        rw [hs.data, List.length_append, List.length_take, List.length_drop, List.length_drop]; omega
      rw [List.length_drop, hs.moved]
      exact hi.mono (by omega) (by omega)
    · exact hF.elim

theorem readExact (h : Agree bad c dev dev' G Is At) {w : W} {d : D} {p : Nat} (buf : Bytes) (hG : G w)
    (hI : Is d c) (hA : At w d p) (hi : Intact bad c p buf.length) :
    MdRecover.readExact dev.read buf (w, d) = MdRecover.readExact dev'.read buf (w, d) :=
  h.readExactLoop _ buf hG hI hA hi

/-- Seek and `read_exact`. -/
theorem readAt (h : Agree bad c dev dev' G Is At) {w w1 : W} {d d1 : D} {p q : Nat} (buf : Bytes) (hG : G w)
    (hI : Is d c) (hp : p < U64) (hs : dev'.seek (.start p) (w, d) = ((w1, d1), .ok q))
    (hi : Intact bad c p buf.length) :
    MdRecover.readExact dev.read buf (w1, d1) = MdRecover.readExact dev'.read buf (w1, d1) := by
  obtain ⟨hG1, hI1, h1⟩ := h.perfect.seek hG hI p hp hs
  rcases h1 with ⟨q', h1, hA, hq1, hq2⟩ | ⟨-, e, h1⟩
  · refine h.readExact buf hG1 hI1 hA ?_
    by_cases hpl : p ≤ c.length
    · rw [hq1 hpl]; exact hi
    · exact .beyond (hq2 (by omega))
  · cases h1

variable [Build]

omit [Build] in
theorem onDevice_ok {α : Type} {m : SM (W × D) α} {s s' : W × Ext4Fs D} {a : α}
    (h : Ext4Fs.onDevice m s = (s', .ok a)) :
    m (s.1, s.2.device) = ((s'.1, s'.2.device), .ok a) ∧ s'.2.superblock = s.2.superblock := by
  unfold Ext4Fs.onDevice SM.zoom at h
  rcases hm : m (s.1, s.2.device) with ⟨t, r⟩
  rw [hm] at h
  obtain ⟨rfl, rfl⟩ := Prod.mk.inj h
  exact ⟨rfl, rfl⟩

omit [Build] in
theorem fsReadAt (h : Agree bad c dev dev' G Is At) {α : Type} {s : W × Ext4Fs D} {p : Nat} (buf : Bytes)
    (hG : G s.1) (hI : Is s.2.device c) (hp : p < U64) (hi : Intact bad c p buf.length)
    (k : Bytes → SM (W × Ext4Fs D) α) :
    (do
      let _ ← Ext4Fs.onDevice (dev.seek (.start p))
      let b ← Ext4Fs.onDevice (MdRecover.readExact dev.read buf)
      k b : SM (W × Ext4Fs D) α) s =
    (do
      let _ ← Ext4Fs.onDevice (dev'.seek (.start p))
      let b ← Ext4Fs.onDevice (MdRecover.readExact dev'.read buf)
      k b : SM (W × Ext4Fs D) α) s := by
  rw [h.seek]
  refine SM.bind_congr rfl fun q s1 h1 => ?_
  obtain ⟨h2, -⟩ := onDevice_ok h1
  exact SM.bind_congr (SM.zoom_congr (h.readAt buf hG hI hp h2 hi)) fun _ _ _ => rfl

theorem readBlock (h : Agree bad c dev dev' G Is At) {s : W × Ext4Fs D} (hG : G s.1) (ho : Opened Is c s.2)
    {b : Nat} {buf : Bytes} (hi : Intact bad c (b * blockSizeOf (sbOf c)) buf.length) :
    Ext4Fs.readBlock dev b buf s = Ext4Fs.readBlock dev' b buf s := by
  unfold Ext4Fs.readBlock
  refine SM.bind_congr rfl ?_
  rintro ⟨w, fs⟩ s1 h1
  cases h1
  refine SM.bind_congr rfl fun bs s1 h1 => ?_
  obtain rfl : (w, fs) = s1 := (Prod.mk.inj h1).1
  have hbs : bs = blockSizeOf (sbOf c) := by
    rw [show (SM.lift fs.blockSize : SM (W × Ext4Fs D) Nat) (w, fs) = _ from
      congrArg (fun r => ((w, fs), r)) ho.blockSize] at h1
    cases h1
    rfl
  subst hbs
  split
  · rfl
  · refine SM.bind_congr rfl fun p s1 h2 => ?_
    rw [SM.lift_apply] at h2
    obtain ⟨rfl, h3⟩ := Prod.mk.inj h2
    have hp := Ext4Sim.ofOption_mul64_lt h3
    have hpe : p = b * blockSizeOf (sbOf c) := by
      unfold checkedMul64 at h3
      split at h3
      · cases h3; rfl
      · cases h3
    subst hpe
    have := h.fsReadAt (α := Bytes) buf hG ho.device hp hi (fun b => Pure.pure b)
    simpa only [SM.bind_pure] using this

end Agree
end MdRecover
