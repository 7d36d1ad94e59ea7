import Verif.Lemmas.Tracked
import Verif.Lemmas.StreamDevices
import Verif.Props.Superblock

/-! C34-C36: device ids, superblock probing. -/

namespace MdRecover
open MdSpec

/-! ## C34 -/

/-- Creations of device ids by any number of threads, in the order in which their atomic increments happen:
each is done by a thread for a user reference.  Gives the outcome of each. -/
def runNewIds : List (Nat × Option Bytes) → Nat → List (Nat × Res MdDeviceId)
  | [], _ => []
  | (thread, ref) :: rest, n =>
    (thread, (MdDeviceId.new ref n).2) :: runNewIds rest (MdDeviceId.new ref n).1

theorem newId_apply (ref : Option Bytes) (n : Nat) :
    MdDeviceId.new ref n = ((n + 1) % U64, if n = U64 - 1 then .panic else .ok ⟨n, ref⟩) := by
  unfold MdDeviceId.new
  rw [SM.bind_apply, nextIndex]
  by_cases h : n = U64 - 1
  · rw [if_pos h, if_pos h]
  · rw [if_neg h, if_neg h]; rfl

theorem runNewIds_get : ∀ (sched : List (Nat × Option Bytes)) (n i : Nat), n < U64 →
    ∀ {t ref}, sched[i]? = some (t, ref) →
    (runNewIds sched n)[i]? = some (t, if (n + i) % U64 = U64 - 1 then .panic
      else .ok ⟨(n + i) % U64, ref⟩)
  | [], n, i, _, t, ref, h => by simp at h
  | (t', ref') :: rest, n, 0, hn, t, ref, h => by
    simp only [List.getElem?_cons_zero, Option.some.injEq, Prod.mk.injEq] at h
    obtain ⟨rfl, rfl⟩ := h
    have h0 : (n + 0) % U64 = n := by omega
    rw [runNewIds, List.getElem?_cons_zero, newId_apply, h0]
  | (t', ref') :: rest, n, i + 1, hn, t, ref, h => by
    rw [List.getElem?_cons_succ] at h
    rw [runNewIds, List.getElem?_cons_succ, newId_apply,
      runNewIds_get rest _ i (Nat.mod_lt _ (by decide)) h]
    have : ((n + 1) % U64 + i) % U64 = (n + (i + 1)) % U64 := by omega
    rw [this]

/-- C34 (partial: up to 2^64 creations; see `C34_counter_wraps` for what happens after).  The counter starts
at 0.  Under every interleaving of the threads' creations, no two ids created compare equal, and each id
keeps the user reference it was created for. -/
theorem C34_ids_unique_partial (sched : List (Nat × Option Bytes)) (hlen : sched.length ≤ U64)
    {i j t u : Nat} {a b : MdDeviceId}
    (ha : (runNewIds sched 0)[i]? = some (t, .ok a)) (hb : (runNewIds sched 0)[j]? = some (u, .ok b)) :
    (a.eq b = true ↔ i = j) ∧ ∃ ref, sched[i]? = some (t, ref) ∧ a.userReference = ref := by
  have hrl : ∀ (s : List (Nat × Option Bytes)) n, (runNewIds s n).length = s.length := by
    intro s
    induction s with
    | nil => intro n; rfl
    | cons x s ih => intro n; rw [runNewIds, List.length_cons, ih, List.length_cons]
  have key : ∀ {i t : Nat} {a : MdDeviceId}, (runNewIds sched 0)[i]? = some (t, .ok a) →
      i < U64 ∧ a.internalIndex = i ∧ ∃ ref, sched[i]? = some (t, ref) ∧ a.userReference = ref := by
    intro i t a ha
    have hi : i < sched.length := by
      rw [← hrl sched 0]
      exact (List.getElem?_eq_some_iff.mp ha).1
    have hi2 : i < U64 := by omega
    rcases hs : sched[i]? with _ | ⟨t', ref⟩
    · rw [List.getElem?_eq_getElem hi] at hs; cases hs
    · rw [runNewIds_get sched 0 i (by decide) hs, Nat.zero_add, Nat.mod_eq_of_lt hi2] at ha
      split at ha
      · cases ha
      · cases ha
        exact ⟨hi2, rfl, ref, rfl, rfl⟩
  obtain ⟨_, h1, h1'⟩ := key ha
  obtain ⟨_, h2, _⟩ := key hb
  refine ⟨?_, h1'⟩
  unfold MdDeviceId.eq
  rw [h1, h2]
  simp

/-- C34: the creation with the largest index panics, but the counter has then already wrapped round to 0:
later creations (by other threads, or after the panic is caught) repeat the ids, so the property does not hold
without a bound on the number of creations. -/
theorem C34_counter_wraps (sched : List (Nat × Option Bytes))
    {x : Nat × Option Bytes} {i : Nat} (hi : i < U64 - 1) (h1 : sched[i]? = some x)
    (h2 : sched[i + U64]? = some x) :
    ∃ a b, (runNewIds sched 0)[i]? = some (x.1, .ok a) ∧
      (runNewIds sched 0)[i + U64]? = some (x.1, .ok b) ∧ a.eq b = true := by
  obtain ⟨t, r⟩ := x
  refine ⟨⟨i, r⟩, ⟨i, r⟩, ?_, ?_, by simp [MdDeviceId.eq]⟩
  · rw [runNewIds_get sched 0 i (by decide) h1, Nat.zero_add, Nat.mod_eq_of_lt (by omega),
      if_neg (by omega)]
  · rw [runNewIds_get sched 0 _ (by decide) h2, Nat.zero_add, Nat.add_mod_right,
      Nat.mod_eq_of_lt (by omega), if_neg (by omega)]

example : (runNewIds [(7, none), (3, some [1]), (7, some [1])] 0) =
    [(7, .ok ⟨0, none⟩), (3, .ok ⟨1, some [1]⟩), (7, .ok ⟨2, some [1]⟩)] := by
  simp [runNewIds, newId_apply]

/-! ## C35 -/

/-- C35: for any device whatever (also a failing or lying one), every byte range the probing asks the device
for lies within the 4096 bytes at one of the four superblock places, and within the device. -/
theorem C35_probes_inside {W D : Type} (dev : StreamDev W D) (hl : KeepsLength dev) (size : Nat)
    (hsize : size < U64) (w : W) (d : D) {start len : Nat}
    (h : (start, len) ∈ (MdDevice.findSuperblock (tracked dev) size ((w, ⟨0, []⟩), d)).1.1.2.asked) :
    start + len ≤ size ∧
      ∃ off, (off = 4096 ∨ off = 0 ∨ Place10 size off ∨ Place090 size off) ∧
        off ≤ start ∧ start + len = off + 4096 := by
  rcases Nat.lt_or_ge size 12288 with hs | hs
  · unfold MdDevice.findSuperblock at h
    rw [if_pos hs] at h
    exact absurd h List.not_mem_nil
  refine tracked_findSuperblock hl (P := fun x => x.1 + x.2 ≤ size ∧
      ∃ off, (off = 4096 ∨ off = 0 ∨ Place10 size off ∨ Place090 size off) ∧
        off ≤ x.1 ∧ x.1 + x.2 = off + 4096) hs ?_ ?_ ((w, ⟨0, []⟩), d) ?_ _ h
  · rw [v1Probes_eq hsize]
    have hp := place10 hs
    generalize (size / 512 - 16) / 8 * 4096 = off at hp
    have := hp.2.1
    intro q hq c n h1 h2
    simp only [List.mem_cons, List.not_mem_nil, or_false] at hq
    rcases hq with rfl | rfl | rfl <;> simp only at h1 h2 ⊢
    · exact ⟨by omega, 4096, .inl rfl, h1, h2⟩
    · exact ⟨by omega, 0, .inr (.inl rfl), h1, h2⟩
    · exact ⟨by omega, off, .inr (.inr (.inl hp)), h1, h2⟩
  · intro hs0 c n h1 h2
    rw [v0Probe_eq hsize] at h1 h2
    have hp := place090 hs0
    generalize size / 65536 * 65536 - 65536 = off at hp h1 h2
    have := hp.2.1
    exact ⟨by simp only; omega, off, .inr (.inr (.inr hp)), h1, h2⟩
  · intro x hx; exact absurd hx List.not_mem_nil

/-- C35: on a device that may fail at any time, the device is reported too small only if it is smaller than
12288 bytes, and if it is, and its size can be found, it is reported too small. -/
theorem C35_too_small_iff {W D : Type} {dev : StreamDev W D} {G : W → Prop}
    {Is : D → Disk → Bytes → Prop} {At : W → D → Nat → Prop} (hd : StreamDevSpec True dev G Is At)
    {w : W} {d : D} {k : Disk} {t : Bytes} (hG : G w) (hI : Is d k t) (ref : Option Bytes) {i : Nat}
    (hi : i < U64 - 1) {s : (W × D) × Nat} {m : MdDevice D}
    (h : MdDevice.fromBlockDevice dev ref ((w, d), i) = (s, .ok m)) :
    m.superblock = .tooSmall ↔ k.content.length < 12288 := by
  obtain ⟨w', d', i', _, _, _, h'⟩ := fromBlockDevice_spec hd hG hI ref hi
  rcases h' with ⟨_, e, h'⟩ | ⟨sb, h', _, hc⟩
  · rw [h] at h'; cases h'
  rw [h] at h'
  cases h'
  simp only
  rcases hc with hc | ⟨_, hs, hc⟩
  · cases hc <;> simp [v1Result, v0Result] <;> omega
  · refine ⟨fun h => ?_, fun h => by omega⟩
    subst h
    rcases hc with h | ⟨_, h⟩ | ⟨_, h⟩ | ⟨_, _, _, h⟩ | ⟨_, _, _, _, h⟩ <;> cases h

/-! ## C36 -/

/-- C36: on a device that answers all requests (reads may be short), opening the device succeeds with the id
taken from the counter and with exactly the superblock expected: the first of 1.2, 1.1, 1.0 and (from 64 KiB
on) 0.90 that is present, or Missing if there is none, or TooSmall. -/
theorem C36_probe_order {W D : Type} {dev : StreamDev W D} {G : W → Prop}
    {Is : D → Disk → Bytes → Prop} {At : W → D → Nat → Prop} (hd : StreamDevSpec False dev G Is At)
    {w : W} {d : D} {k : Disk} {t : Bytes} (hG : G w) (hI : Is d k t) (ref : Option Bytes) {i : Nat}
    (hi : i < U64 - 1) :
    ∃ w' d' sb, MdDevice.fromBlockDevice dev ref ((w, d), i) =
        (((w', d'), i + 1), .ok ⟨⟨i, ref⟩, sb, d'⟩) ∧ G w' ∧ Is d' k t ∧ Expected k.content sb := by
  obtain ⟨w', d', i', hG', hI', _, h'⟩ := fromBlockDevice_spec hd hG hI ref hi
  rcases h' with ⟨hF, _⟩ | ⟨sb, h', rfl, hc⟩
  · exact hF.elim
  · exact ⟨w', d', sb, h', hG', hI', hc.resolve_right fun h => h.1⟩

/-- C36: the expected superblock is determined by the content. -/
theorem C36_expected_unique {content : Bytes} {a b : DeviceSuperblock} (ha : Expected content a)
    (hb : Expected content b) : a = b := by
  have hv : ∀ {off e f}, V0At content off e → V0At content off f → e = f := by
    intro off e f h1 h2
    have h3 := v0_decode_of_acceptable h1
    have h4 := v0_decode_of_acceptable h2
    have hm : ∀ {e f : Endian} {b : Bytes}, V0Acceptable e b → V0Acceptable f b → e = .little →
        f = .big → False := by
      rintro _ _ b ⟨h1, _⟩ ⟨h2, _⟩ rfl rfl
      have hlen : (slice b 0 4).length = 4 := by
        have hlt := leNat_lt (slice b 0 4)
        have hle : (slice b 0 4).length ≤ 4 := by rw [slice_length]; omega
        rcases Nat.lt_or_ge (slice b 0 4).length 4 with hne | hne
        · have : 256 ^ (slice b 0 4).length ≤ 256 ^ 3 := Nat.pow_le_pow_right (by decide) (by omega)
          simp only [Endian.nat] at h1
          omega
        · omega
      have e1 := leBytes_leNat (slice b 0 4)
      simp only [Endian.nat] at h1 h2
      rw [hlen, h1] at e1
      rw [← e1] at h2
      exact absurd h2 (by decide)
    cases e <;> cases f
    · rfl
    · exact (hm h1 h2 rfl rfl).elim
    · exact (hm h2 h1 rfl rfl).elim
    · rfl
  cases ha <;> cases hb <;> first
    | rfl
    | (exfalso; omega)
    | (exfalso; simp_all; done)
    | skip
  case v10.v10 p1 _ _ _ _ _ p2 _ => rw [place10_unique p1 p2]
  case v10.v090 p1 h1 _ _ _ _ _ _ p2 h2 _ _ => rw [place10_unique p1 p2] at h1; exact absurd h1 h2
  case v10.missing p1 h1 _ _ _ _ p2 h2 _ => rw [place10_unique p1 p2] at h1; exact absurd h1 h2
  case v090.v10 p1 h1 _ _ _ _ _ _ p2 h2 => rw [place10_unique p2 p1] at h2; exact absurd h2 h1
  case v090.v090 p1 v1 _ _ _ _ _ _ _ _ p2 v2 =>
    rw [place090_unique p1 p2] at v1 ⊢
    rw [hv v1 v2]
  case missing.v10 p1 h1 _ _ _ _ _ p2 h2 => rw [place10_unique p2 p1] at h2; exact absurd h2 h1

/-- C36, on a device that may fail at any time: what is reported as the superblock is really on the device,
at one of the four places (but after read errors it need not be the first one, and Missing may be reported
although there is one). -/
theorem C36_never_invented {W D : Type} {dev : StreamDev W D} {G : W → Prop}
    {Is : D → Disk → Bytes → Prop} {At : W → D → Nat → Prop} (hd : StreamDevSpec True dev G Is At)
    {w : W} {d : D} {k : Disk} {t : Bytes} (hG : G w) (hI : Is d k t) (ref : Option Bytes) {i : Nat}
    (hi : i < U64 - 1) {s : (W × D) × Nat} {m : MdDevice D} {sb : Superblock}
    (h : MdDevice.fromBlockDevice dev ref ((w, d), i) = (s, .ok m))
    (hsb : m.superblock = .superblock sb) : Genuine k.content m.superblock := by
  obtain ⟨w', d', i', _, _, _, h'⟩ := fromBlockDevice_spec hd hG hI ref hi
  rcases h' with ⟨_, e, h'⟩ | ⟨sb', h', _, hc⟩
  · rw [h] at h'; cases h'
  rw [h] at h'
  cases h'
  simp only at hsb ⊢
  subst hsb
  rcases hc with hc | ⟨_, _, hc | hc⟩
  · generalize hx : DeviceSuperblock.superblock sb = x at hc
    cases hc with
    | tooSmall => cases hx
    | v12 _ h => exact .inl ⟨h, rfl⟩
    | v11 _ _ h => exact .inr (.inl ⟨h, rfl⟩)
    | v10 _ _ _ hp h => exact .inr (.inr (.inl ⟨_, hp, h, rfl⟩))
    | v090 _ _ _ _ _ hp h => exact .inr (.inr (.inr ⟨_, _, hp, h, rfl⟩))
    | missing => cases hx
  · cases hc
  · exact hc

/-- C36: the hypotheses are met by in-memory devices with any content and block size, and by file-backed
devices (honest ones may fail, reliable ones do not). -/
theorem C36_devices :
    StreamDevSpec False InMemory.streamDev (fun _ => True) InMemory.IsStream
      (fun _ d p => d.pos = p ∧ p ≤ d.mem.length) ∧
    StreamDevSpec True FileDev.streamDev (fun _ => True) FileDev.IsStream
      (fun K d p => K.offset d.ofd = p) ∧
    StreamDevSpec False FileDev.streamDev FileDev.NoFailures FileDev.IsStream
      (fun K d p => K.offset d.ofd = p) ∧
    (∀ d : InMemory, 0 < d.blockSize → d.blockSize < U32 → d.mem.length < U64 →
      ∃ k t, InMemory.IsStream d k t) ∧
    (∀ d : FileDev, 0 < d.blockSize → d.blockSize < U32 → d.content.length < U64 →
      ∃ k t, FileDev.IsStream d k t) :=
  ⟨InMemory.streamDevSpec, FileDev.streamDevSpec_honest, FileDev.streamDevSpec_reliable,
    fun d h1 h2 h3 => ⟨_, _, d.isStream_of h1 h2 h3⟩, fun d h1 h2 h3 => ⟨_, _, d.isStream_of h1 h2 h3⟩⟩

/-- C36: a device that claims more than 2^64 - 1 bytes is refused with InvalidInput; no id is used up, and the
device is neither read nor moved. -/
theorem C36_too_large {W D : Type} (dev : StreamDev W D) (ref : Option Bytes) (w w' w'' : W) (d : D) (i n bs : Nat)
    (hn : dev.blockCount d w = (w', .ok n)) (hbs : dev.blockSize d w' = (w'', .ok bs)) (h : U64 ≤ n * bs) :
    MdDevice.fromBlockDevice dev ref ((w, d), i) = (((w'', d), i), .err .invalidInput) := by
  have hs : MdDevice.deviceSize dev (w, d) = ((w'', d), .err .invalidInput) := by
    unfold MdDevice.deviceSize
    rw [SM.bind_ok (h := SM.get_apply _)]
    simp only
    rw [SM.bind_ok (a := n) (s' := (w', d)) (h := by simp only [SM.zoom, hn]),
      SM.bind_ok (a := bs) (s' := (w'', d)) (h := by simp only [SM.zoom, hbs])]
    have : sizeBytes n bs = none := by
      unfold sizeBytes checkedMul64
      rw [if_neg (by omega)]
    rw [this]; rfl
  unfold MdDevice.fromBlockDevice
  exact SM.bind_err _ (by simp only [SM.zoom, hs])

/-- Non-vacuity of `C36_too_large`: 2^60 blocks of 4096 bytes. -/
example (d : InMemory) (i : Nat) :
    MdDevice.fromBlockDevice { InMemory.streamDev with
        blockCount := fun _ => pure (2 ^ 60), blockSize := fun _ => pure 4096 } none (((), d), i) =
      ((((), d), i), .err .invalidInput) :=
  C36_too_large _ none () () () d i (2 ^ 60) 4096 rfl rfl (by decide)

theorem KeepsLength.inMemory : KeepsLength InMemory.streamDev := by
  rintro buf ⟨w, d⟩ s' k buf' h
  simp only [InMemory.streamDev, SM.zoom, InMemory.read] at h
  split at h
  · cases h
  · cases h
    rw [overwrite, List.length_append, List.length_drop, slice, List.length_take, List.length_drop]
    omega

/-- Non-vacuity of C36: a disk of 12288 bytes with the sample superblock at 4096 has the sample superblock
as its 1.2 superblock. -/
theorem C36_witness : ∃ content : Bytes, content.length = 12288 ∧
    Expected content (.superblock (SuperblockV1.mk sampleMdp1.encode 2).toSuperblock) := by
  have hl : sampleMdp1.encode.length = 4096 := Mdp1.length_encode sampleMdp1_wf
  have hs : ∀ off n, off + n ≤ 4096 →
      slice (zeros 4096 ++ (sampleMdp1.encode ++ zeros 4096)) (4096 + off) n =
      slice sampleMdp1.encode off n := by
    intro off n h
    have h0 : (zeros 4096).length = 4096 := List.length_replicate
    have h1 : 4096 + off = (zeros 4096).length + off := by omega
    rw [h1, slice_append_right, slice_append_left (by omega)]
  have h0 := hs 0 4096 (by omega)
  have h1 : slice sampleMdp1.encode 0 4096 = sampleMdp1.encode := by
    rw [slice, List.drop_zero, ← hl, List.take_length]
  have hlen : (zeros 4096 ++ (sampleMdp1.encode ++ zeros 4096)).length = 12288 := by
    rw [List.length_append, List.length_append, hl, zeros, List.length_replicate]
  have hz : (SuperblockV1.mk sampleMdp1.encode 2) =
      ⟨slice (zeros 4096 ++ (sampleMdp1.encode ++ zeros 4096)) 4096 4096, 2⟩ := by
    rw [Nat.add_zero] at h0
    rw [h0, h1]
  refine ⟨zeros 4096 ++ (sampleMdp1.encode ++ zeros 4096), hlen, ?_⟩
  · rw [hz]
    refine .v12 (Nat.le_of_eq hlen.symm) ⟨?_, ?_⟩
    · have := hs 0 4 (by omega)
      rw [Nat.add_zero] at this
      rw [this, Mdp1.slice_magic sampleMdp1_wf, leNat_leBytes (by decide)]; rfl
    · rw [hs 4 4 (by omega), Mdp1.slice_major_version sampleMdp1_wf, leNat_leBytes (by decide)]; rfl

end MdRecover
