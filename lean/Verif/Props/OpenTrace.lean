import Verif.Lemmas.OpenTrace
import Verif.Props.Ext4FileCases
import Verif.Props.Unreadable

/-! C106: what opening asks a device for. -/

namespace MdRecover
open MdSpec

section
variable {W D : Type} {F : Prop} {dev : StreamDev W D} {G : W → Prop} {Is : D → Disk → Bytes → Prop}
  {At : W → D → Nat → Prop}

/-- C106 for the search for a superblock: the places are looked at in order, each at most once, with a seek and reads
of no more than 4096 bytes; nothing else is asked for, nothing beyond the place of the superblock found, and no
superblock is reported missing before every place has been looked at. -/
theorem C106_probe (hd : StreamDevSpec F dev G Is At) (w : W) (d : D) (k : Disk) (t : Bytes) (hG : G w)
    (hI : Is d k t) (ref : Option Bytes) (i : Nat) (l : List Asked) (s : ((W × List Asked) × D) × Nat)
    (r : Res (MdDevice D)) (h : MdDevice.fromBlockDevice (loggedDev dev) ref (((w, l), d), i) = (s, r)) :
    ∃ places xs asked, ProbePlaces k.content.length places ∧ xs <+: places ∧ s.1.1.2 = l ++ asked ∧
      Asks 1 4096 xs asked ∧
      (∀ m, r = .ok m → m.superblock = .missing → xs = places) ∧
      (∀ m b, r = .ok m → m.superblock = .superblock b → ∃ ys x, xs = ys ++ [x] ∧ HoldsSuperblock k.content x ∧
        (¬ F → ∀ y ∈ ys, ¬ V1At k.content y)) := by
  have hwf := hd.toDev.wf ⟨t, hI⟩
  have hlt : k.content.length < U64 := by rw [hwf.len]; exact hwf.size_lt
  have hplaces : ∃ places, ProbePlaces k.content.length places := by
    rcases Nat.lt_or_ge k.content.length 12288 with hs | hs
    · exact ⟨_, .tooSmall hs⟩
    rcases Nat.lt_or_ge k.content.length 65536 with hs0 | hs0
    · exact ⟨_, .small hs hs0 (place10 hs)⟩
    · exact ⟨_, .large hs0 (place10 hs) (place090 hs0)⟩
  have hnothing : s.1.1.2 = l → (∀ m, r = .ok m → m.superblock = .tooSmall) →
      ∃ places xs asked, ProbePlaces k.content.length places ∧ xs <+: places ∧ s.1.1.2 = l ++ asked ∧
        Asks 1 4096 xs asked ∧
        (∀ m, r = .ok m → m.superblock = .missing → xs = places) ∧
        (∀ m b, r = .ok m → m.superblock = .superblock b → ∃ ys x, xs = ys ++ [x] ∧ HoldsSuperblock k.content x ∧
          (¬ F → ∀ y ∈ ys, ¬ V1At k.content y)) := by
    intro h1 h2
    obtain ⟨places, hp⟩ := hplaces
    refine ⟨places, [], [], hp, List.nil_prefix, by rw [h1, List.append_nil], .nil, fun m hm hx => ?_,
      fun m b hm hx => ?_⟩ <;> rw [h2 m hm] at hx <;> cases hx
  unfold MdDevice.fromBlockDevice at h
  have hsize : ∃ w' r', MdDevice.deviceSize (loggedDev dev) ((w, l), d) = (((w', l), d), r') ∧ G w' ∧
      (∀ n, r' = .ok n → n = k.content.length) := by
    obtain ⟨w', hG', h1⟩ := deviceSize_spec hd hG hI
    have hlog : ∀ r', MdDevice.deviceSize dev (w, d) = ((w', d), r') →
        MdDevice.deviceSize (loggedDev dev) ((w, l), d) = (((w', l), d), r') := by
      intro r' hr
      unfold MdDevice.deviceSize at hr ⊢
      rw [SM.bind_ok (h := SM.get_apply _)] at hr ⊢
      simp only at hr ⊢
      rcases hc : dev.blockCount d w with ⟨w2, rc⟩
      have e1 : (SM.zoom Prod.fst (fun s w => (w, s.2)) (dev.blockCount d) : SM (W × D) Nat) (w, d) =
          ((w2, d), rc) := by simp only [SM.zoom, hc]
      have e2 : (SM.zoom Prod.fst (fun s w => (w, s.2)) ((loggedDev dev).blockCount d) :
          SM ((W × List Asked) × D) Nat) ((w, l), d) = (((w2, l), d), rc) := by
        simp only [loggedDev, SM.zoom, hc]
      cases rc with
      | err e => rw [SM.bind_err (h := e1)] at hr; rw [SM.bind_err (h := e2)]; cases hr; rfl
      | panic => rw [SM.bind_panic (h := e1)] at hr; rw [SM.bind_panic (h := e2)]; cases hr; rfl
      | ok n =>
      rw [SM.bind_ok (h := e1)] at hr
      rw [SM.bind_ok (h := e2)]
      rcases hs : dev.blockSize d w2 with ⟨w3, rs⟩
      have e3 : (SM.zoom Prod.fst (fun s w => (w, s.2)) (dev.blockSize d) : SM (W × D) Nat) (w2, d) =
          ((w3, d), rs) := by simp only [SM.zoom, hs]
      have e4 : (SM.zoom Prod.fst (fun s w => (w, s.2)) ((loggedDev dev).blockSize d) :
          SM ((W × List Asked) × D) Nat) ((w2, l), d) = (((w3, l), d), rs) := by
        simp only [loggedDev, SM.zoom, hs]
      cases rs with
      | err e => rw [SM.bind_err (h := e3)] at hr; rw [SM.bind_err (h := e4)]; cases hr; rfl
      | panic => rw [SM.bind_panic (h := e3)] at hr; rw [SM.bind_panic (h := e4)]; cases hr; rfl
      | ok m =>
      rw [SM.bind_ok (h := e3), SM.lift_apply] at hr
      rw [SM.bind_ok (h := e4), SM.lift_apply]
      injection hr with hr1 hr2
      injection hr1 with hr1 hr3
      rw [hr1, hr2]
    rcases h1 with ⟨-, e, h1⟩ | h1
    · exact ⟨w', _, hlog _ h1, hG', fun n hn => by cases hn⟩
    · exact ⟨w', _, hlog _ h1, hG', fun n hn => by cases hn; rfl⟩
  obtain ⟨w1, r1, h1, hG1, h2⟩ := hsize
  have hz : SM.zoom Prod.fst (fun s t => (t, s.2)) (MdDevice.deviceSize (loggedDev dev)) (((w, l), d), i) =
      ((((w1, l), d), i), r1) := by
    unfold SM.zoom
    simp only [h1]
  cases r1 with
  | err e =>
    rw [SM.bind_err (h := hz)] at h
    cases h
    exact hnothing rfl fun m hm => by cases hm
  | panic =>
    rw [SM.bind_panic (h := hz)] at h
    cases h
    exact hnothing rfl fun m hm => by cases hm
  | ok n =>
  obtain rfl := h2 n rfl
  rw [SM.bind_ok (h := hz)] at h
  rcases hid : MdDeviceId.new ref i with ⟨i', rid⟩
  have hz2 : (SM.zoom Prod.snd (fun s t => (s.1, t)) (MdDeviceId.new ref) :
      SM (((W × List Asked) × D) × Nat) MdDeviceId) (((w1, l), d), i) = ((((w1, l), d), i'), rid) := by
    unfold SM.zoom
    simp only [hid]
  cases rid with
  | err e =>
    rw [SM.bind_err (h := hz2)] at h
    cases h
    exact hnothing rfl fun m hm => by cases hm
  | panic =>
    rw [SM.bind_panic (h := hz2)] at h
    cases h
    exact hnothing rfl fun m hm => by cases hm
  | ok id =>
  rw [SM.bind_ok (h := hz2)] at h
  rcases hf : MdDevice.findSuperblock (loggedDev dev) k.content.length ((w1, l), d) with ⟨s2, r2⟩
  have hz3 : SM.zoom Prod.fst (fun s t => (t, s.2))
      (MdDevice.findSuperblock (loggedDev dev) k.content.length) (((w1, l), d), i') = ((s2, i'), r2) := by
    unfold SM.zoom
    simp only [hf]
  have hout : s.1 = s2 ∧ ∀ m, r = .ok m → r2 = .ok m.superblock := by
    cases r2 with
    | err e =>
      rw [SM.bind_err (h := hz3)] at h
      cases h
      exact ⟨rfl, fun m hm => by cases hm⟩
    | panic =>
      rw [SM.bind_panic (h := hz3)] at h
      cases h
      exact ⟨rfl, fun m hm => by cases hm⟩
    | ok sb =>
      rw [SM.bind_ok (h := hz3), SM.bind_ok (h := SM.get_apply _)] at h
      cases h
      exact ⟨rfl, fun m hm => by cases hm; rfl⟩
  obtain ⟨rfl, hm2⟩ := hout
  clear h hz hz2 hz3
  rcases Nat.lt_or_ge k.content.length 12288 with hs | hs
  · unfold MdDevice.findSuperblock at hf
    rw [if_pos hs] at hf
    have hf' : (((w1, l), d), Res.ok DeviceSuperblock.tooSmall) = (s.1, r2) := hf
    injection hf' with hf1 hf2
    refine hnothing (by rw [← hf1]) fun m hm => ?_
    have := hm2 m hm
    rw [← hf2] at this
    injection this with this
    exact this.symm
  rw [findSuperblock_ge _ hs, v1Probes_eq hlt] at hf
  have hp := place10 hs
  generalize (k.content.length / 512 - 16) / 8 * 4096 = off at hp hf
  rcases hv1 : MdDevice.probeV1 (loggedDev dev) [(2, 4096), (1, 0), (0, off)] ((w1, l), d) with ⟨s3, r3⟩
  obtain ⟨hG3, hI3, xs, asked, h3, h4, h5, h6, h7⟩ := probeV1_logged hd [(2, 4096), (1, 0), (0, off)] w1 l d s3 r3 hG1
    hI (by
      have := hp.2.1
      intro q hq
      simp only [List.mem_cons, List.not_mem_nil, or_false] at hq
      rcases hq with rfl | rfl | rfl <;> simp only <;> omega) hv1
  change xs <+: [4096, 0, off] at h5
  have hpre : ∃ places, ProbePlaces k.content.length places ∧ [4096, 0, off] <+: places ∧
      (k.content.length < 65536 → places = [4096, 0, off]) := by
    rcases Nat.lt_or_ge k.content.length 65536 with hs0 | hs0
    · exact ⟨_, .small hs hs0 hp, List.prefix_rfl, fun _ => rfl⟩
    · exact ⟨_, .large hs0 hp (place090 hs0), ⟨_, rfl⟩, fun h => by omega⟩
  obtain ⟨places, hpl, hpl1, hpl2⟩ := hpre
  have hat : ∀ x ∈ [4096, 0, off], V1At k.content x → HoldsSuperblock k.content x := by
    intro x hx hv
    simp only [List.mem_cons, List.not_mem_nil, or_false] at hx
    rcases hx with rfl | rfl | rfl
    · exact .inl ⟨.inl rfl, hv⟩
    · exact .inl ⟨.inr (.inl rfl), hv⟩
    · exact .inl ⟨.inr (.inr hp), hv⟩
  have hfail : (∀ b, r3 ≠ .ok b) → s.1 = s3 → (∀ b, r2 ≠ .ok b) → ∃ places xs asked,
      ProbePlaces k.content.length places ∧ xs <+: places ∧ s.1.1.2 = l ++ asked ∧ Asks 1 4096 xs asked ∧
      (∀ m, r = .ok m → m.superblock = .missing → xs = places) ∧
      (∀ m b, r = .ok m → m.superblock = .superblock b → ∃ ys x, xs = ys ++ [x] ∧ HoldsSuperblock k.content x ∧
        (¬ F → ∀ y ∈ ys, ¬ V1At k.content y)) := fun _ h8 h9 =>
    ⟨places, xs, asked, hpl, h5.trans hpl1, by rw [h8, h3], h4, fun m hm => absurd (hm2 m hm) (h9 _),
      fun m b hm => absurd (hm2 m hm) (h9 _)⟩
  cases r3 with
  | err e =>
    rw [SM.bind_err (h := hv1)] at hf
    cases hf
    exact hfail (fun b h => by cases h) rfl (fun b h => by cases h)
  | panic =>
    rw [SM.bind_panic (h := hv1)] at hf
    cases hf
    exact hfail (fun b h => by cases h) rfl (fun b h => by cases h)
  | ok o =>
  cases o with
  | some b =>
    rw [SM.bind_ok (h := hv1)] at hf
    obtain ⟨ys, x, rfl, h8, h9⟩ := h7 b rfl
    have hx := hat x (h5.subset (List.mem_append_right _ (List.mem_singleton_self x))) h8
    have hf' : (s3, Res.ok (DeviceSuperblock.superblock b.toSuperblock)) = (s.1, r2) := hf
    injection hf' with hf1 hf2
    refine ⟨places, _, asked, hpl, h5.trans hpl1, by rw [← hf1, h3], h4, fun m hm hmm => ?_, fun m b' hm hmm =>
      ⟨ys, x, rfl, hx, h9⟩⟩
    have := hm2 m hm
    rw [hmm, ← hf2] at this
    cases this
  | none =>
  obtain ⟨rfl, h8⟩ := h6 rfl
  rw [SM.bind_ok (h := hv1)] at hf
  simp only at hf
  rcases Nat.lt_or_ge k.content.length 65536 with hs0 | hs0
  · rw [SM.bind_ok (a := none) (s' := s3) (h := by
        unfold MdDevice.probeV0; rw [if_neg (by omega)]; rfl)] at hf
    have hf' : (s3, Res.ok DeviceSuperblock.missing) = (s.1, r2) := hf
    injection hf' with hf1 hf2
    refine ⟨places, _, asked, hpl, h5.trans hpl1, by rw [← hf1, h3], h4, fun m hm hmm => (hpl2 hs0).symm,
      fun m b' hm hmm => ?_⟩
    have := hm2 m hm
    rw [hmm, ← hf2] at this
    cases this
  · rcases hv0 : MdDevice.probeV0 (loggedDev dev) k.content.length s3 with ⟨s4, r4⟩
    obtain ⟨⟨w3, l3⟩, d3⟩ := s3
    obtain ⟨-, -, o, asked', ho, h9, h10, h11⟩ := probeV0_logged hd hG3 hI3 hlt hs0 hv0
    have hl : s4.1.2 = l ++ (asked ++ asked') := by rw [h9, ← List.append_assoc]; exact congrArg (· ++ asked') h3
    have ha := asks_append h4 h10
    have hs4 : s.1 = s4 ∧ ((∀ sb, r2 = .ok sb → (sb = .missing ∨ ∃ b, r4 = .ok (some b)))) := by
      cases r4 with
      | err e =>
        rw [SM.bind_err (h := hv0)] at hf
        injection hf with hf1 hf2
        exact ⟨hf1.symm, fun sb hsb => by rw [← hf2] at hsb; cases hsb⟩
      | panic =>
        rw [SM.bind_panic (h := hv0)] at hf
        injection hf with hf1 hf2
        exact ⟨hf1.symm, fun sb hsb => by rw [← hf2] at hsb; cases hsb⟩
      | ok o =>
        rw [SM.bind_ok (h := hv0)] at hf
        cases o with
        | none =>
          injection hf with hf1 hf2
          exact ⟨hf1.symm, fun sb hsb => by rw [← hf2] at hsb; cases hsb; exact .inl rfl⟩
        | some b =>
          injection hf with hf1 hf2
          exact ⟨hf1.symm, fun sb hsb => .inr ⟨b, rfl⟩⟩
    obtain ⟨hs4, hr2⟩ := hs4
    refine ⟨_, [4096, 0, off] ++ [o], asked ++ asked', .large hs0 hp ho, List.prefix_rfl, by rw [hs4, hl], ha,
      fun m hm hmm => rfl, fun m b hm hmm => ⟨_, o, rfl, ?_, h8⟩⟩
    rcases hr2 _ (hm2 m hm) with h | ⟨b', hb'⟩
    · rw [hmm] at h; cases h
    · exact .inr ⟨ho, h11 b' hb'⟩

end

section
variable [Build] {W D : Type} {F : Prop} {dev : StreamDev W D} {G : W → Prop} {Is : D → Bytes → Prop}
  {At : W → D → Nat → Prop}

/-- C106 for ext4 filesystems: opening asks for the superblock, once, and then, if that is acceptable, for the group
descriptors, once, one after the other; and for nothing else, whatever the result and whatever fails. -/
theorem C106_open (hv : VolumeSpec F dev G Is At) (c : Bytes) (hb : TableChecked c) (w : W) (hG : G w) (d : D)
    (hd : Is d c) (l : List Asked) (s : W × List Asked) (r : Res (Ext4Fs D))
    (h : Ext4Fs.open (loggedDev dev) d (w, l) = (s, r)) :
    ∃ asked, Asks 1 1024 [1024] asked ∧
      ((s.2 = l ++ asked ∧ ∀ fs, r ≠ .ok fs) ∨
       (2048 ≤ c.length ∧ Ext4Readable (sbOf c) ∧
        ∃ reads, s.2 = l ++ asked ++ .seek (.start (groupTableOf (sbOf c))) :: reads ∧
          (∀ a ∈ reads, ∃ k n, a = .read k n ∧ k ≤ le (sbOf c) 0xfe 2) ∧
          bytesReturned reads ≤ groupsOf (sbOf c) * le (sbOf c) 0xfe 2)) := by
  rcases hbody : Ext4Fs.openBody (loggedDev dev) ((w, l), d) with ⟨s', r'⟩
  have hout : s = s'.1 ∧ ((∀ x, r' ≠ .ok x) → ∀ fs, r ≠ .ok fs) := by
    unfold Ext4Fs.open SM.withLocal at h
    cases r' with
    | ok x =>
      rw [SM.bind_ok (h := hbody)] at h
      cases h
      exact ⟨rfl, fun h => absurd rfl (h x)⟩
    | err e =>
      rw [SM.bind_err (h := hbody)] at h
      cases h
      exact ⟨rfl, fun _ fs h => by cases h⟩
    | panic =>
      rw [SM.bind_panic (h := hbody)] at h
      cases h
      exact ⟨rfl, fun _ fs h => by cases h⟩
  obtain ⟨rfl, hr⟩ := hout
  obtain ⟨asked, h1, h2⟩ := Ext4Fs.openBody_logged hv hb hG hd hbody
  refine ⟨asked, h1, ?_⟩
  rcases h2 with ⟨h2, h3⟩ | h2
  · exact .inl ⟨h2, hr h3⟩
  · exact .inr h2

end

namespace Fixture

/-- One place. -/
theorem asks_one {m x : Nat} {log : List Asked} (h : Asks 1 m [x] log) : ∃ reads,
    log = .seek (.start x) :: reads ∧ (∀ a ∈ reads, ∃ k n, a = .read k n ∧ k ≤ m) ∧ bytesReturned reads ≤ m := by
  cases h with
  | cons _ _ reads rest h1 h2 h3 =>
    cases h3
    exact ⟨reads, by rw [Nat.mul_one, List.append_nil], h1, h2⟩

/-- C106, a case: of a disk with a 1.2 superblock nothing is asked but the 4096 bytes of that superblock. -/
theorem C106_probe_case : ∃ s m reads, MdDevice.fromBlockDevice (loggedDev InMemory.streamDev) none
      ((((), []), InMemory.new (diskWith (zeros 4096) sampleMdp1.encode) 512), 1) = (s, .ok m) ∧
    m.superblock = v1Result (diskWith (zeros 4096) sampleMdp1.encode) 4096 2 ∧
    s.1.1.2 = .seek (.start 4096) :: reads ∧ (∀ a ∈ reads, ∃ k n, a = .read k n ∧ k ≤ 4096) ∧
    bytesReturned reads ≤ 4096 := by
  have hz : (zeros 4096).length = 4096 := length_zeros _
  have hl : sampleMdp1.encode.length = 4096 := Mdp1.length_encode sampleMdp1_wf
  have hlen := diskWith_length hz hl
  have hh := @diskWith_holds
  generalize diskWith (zeros 4096) sampleMdp1.encode = c at *
  have hI : InMemory.IsStream (InMemory.new c 512) ⟨512, 32, c⟩ [] := by
    have h := (InMemory.new c 512).isStream_of (show 0 < 512 by decide) (show 512 < U32 by decide) (by
      rw [show (InMemory.new c 512).mem = c from rfl, hlen]; decide)
    rw [show (InMemory.new c 512).mem = c from rfl, show (InMemory.new c 512).blockSize = 512 from rfl,
      Nat.div_mul_cancel (by rw [hlen]; exact ⟨32, rfl⟩), List.take_length, List.drop_length, hlen] at h
    exact h
  obtain ⟨⟨⟨⟩, log⟩, d', sb, h1, -, -, h2⟩ := C36_probe_order (loggedStream_spec InMemory.streamDevSpec)
    (w := ((), [])) trivial hI none (i := 1) (by decide)
  have hv : V1At c 4096 := by
    rcases hh.mpr rfl with ⟨-, h⟩ | ⟨h, -⟩
    · exact h
    · exact absurd h.1 (by decide)
  obtain rfl := C36_expected_unique h2 (.v12 (by simp only [hlen]; decide) hv)
  obtain ⟨places, xs, asked, h3, h4, h5, h6, -, h8⟩ := C106_probe InMemory.streamDevSpec () _ _ _ trivial hI none 1 []
    _ _ h1
  obtain ⟨ys, x, rfl, hx, hys⟩ := h8 _ _ rfl rfl
  obtain rfl := hh.mp hx
  have hnil : ys = [] := by
    cases ys with
    | nil => rfl
    | cons y ys =>
      have hy : y = 4096 := by
        cases h3 with
        | tooSmall => exact absurd h4 (by simp)
        | small => exact (List.cons_prefix_cons.1 h4).1
        | large => exact (List.cons_prefix_cons.1 h4).1
      exact absurd hv (hy ▸ hys id y List.mem_cons_self)
  subst hnil
  obtain ⟨reads, rfl, h9, h10⟩ := asks_one h6
  exact ⟨_, _, reads, h1, rfl, h5, h9, h10⟩

/-- C106, a case: opening a small filesystem asks for its superblock and its one descriptor. -/
theorem C106_open_case [Build] (d : FileDev) (hd : d.content = smallFs) (K : Kernel) (hK : FileDev.NoFailures K) :
    ∃ s fs r1 r2, Ext4Fs.open (loggedDev FileDev.streamDev) d (K, []) = (s, .ok fs) ∧
      s.2 = .seek (.start 1024) :: r1 ++ .seek (.start 2048) :: r2 ∧
      (∀ a ∈ r1, ∃ k n, a = .read k n ∧ k ≤ 1024) ∧ bytesReturned r1 ≤ 1024 ∧
      (∀ a ∈ r2, ∃ k n, a = .read k n ∧ k ≤ 64) ∧ bytesReturned r2 ≤ 64 := by
  obtain ⟨-, v2, v3, v4, -⟩ := small_values
  have hb : TableChecked smallFs := .inr (by rw [v2]; decide)
  have hop := smallFs_like.openable
  obtain ⟨s, r, h1, -, h2⟩ := Ext4Fs.open_spec (loggedDev_spec FileDev.volumeSpec_reliable) (w := (K, [])) hK hd hb
  have hr : ∃ fs, r = .ok fs := by
    rcases h2 with ⟨fs, rfl, -⟩ | ⟨h | h, -⟩ | ⟨h, -⟩
    · exact ⟨fs, rfl⟩
    · exact h.elim
    · exact absurd hop h.1
    · exfalso
      rcases h.2.2 with h | ⟨-, h | h⟩
      · exact hop.readable.blocksPerGroup h
      · rw [v2] at h; exact absurd h (by decide)
      · rw [v3] at h; exact absurd h (by decide)
  obtain ⟨fs, rfl⟩ := hr
  obtain ⟨asked, h3, h4⟩ := C106_open FileDev.volumeSpec_reliable smallFs hb K hK d hd [] s _ h1
  obtain ⟨r1, rfl, h5, h6⟩ := asks_one h3
  rcases h4 with ⟨-, h4⟩ | ⟨-, -, r2, h7, h8, h9⟩
  · exact absurd rfl (h4 fs)
  · rw [v2] at h7
    rw [v4] at h8 h9
    rw [v3] at h9
    exact ⟨s, fs, r1, r2, h1, h7, h5, h6, h8, h9⟩

end Fixture
end MdRecover
