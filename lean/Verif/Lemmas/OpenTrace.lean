import Verif.Lemmas.Trace
import Verif.Lemmas.Probe
import Verif.Spec.OpenTrace

/-! What opening asks a device for. -/

namespace MdRecover
open MdSpec

section
variable {W D : Type} {F : Prop} {dev : StreamDev W D} {G : W → Prop} {Is : D → Disk → Bytes → Prop}
  {At : W → D → Nat → Prop}

/-- The device with a log is as good as the device. -/
theorem loggedStream_spec (hd : StreamDevSpec F dev G Is At) :
    StreamDevSpec F (loggedDev dev) (fun w => G w.1) Is (fun w d p => At w.1 d p) where
  toDev :=
    { wf := fun h => hd.toDev.wf h
      blockSize := fun {w d k} hG hI => hd.toDev.blockSize hG hI
      blockCount := fun {w d k} hG hI => hd.toDev.blockCount hG hI
      readBlock := fun {w d k} hG hI b buf hb hl => hd.toDev.readBlock hG hI b buf hb hl
      tryClone := fun {w d k} hG hI => hd.toDev.tryClone hG hI }
  seek := by
    rintro ⟨w, l⟩ d k t hG hI p hp ⟨w', l'⟩ d' r h
    rcases hx : dev.seek (.start p) (w, d) with ⟨⟨w1, d1⟩, r1⟩
    rw [logged_seek l hx] at h
    cases h
    exact hd.seek hG hI p hp hx
  read := by
    rintro ⟨w, l⟩ d k t p hG hI hat buf ⟨w', l'⟩ d' r h
    rcases hx : dev.read buf (w, d) with ⟨⟨w1, d1⟩, r1⟩
    rw [logged_read l hx] at h
    cases h
    exact hd.read hG hI hat buf hx

/-- The reads made to fill a buffer. -/
theorem readExact_logged (hd : StreamDevSpec F dev G Is At) {k : Disk} {t : Bytes} : ∀ (fuel : Nat) (buf : Bytes)
    (w : W) (l : List Asked) (d : D) (p : Nat) (s' : (W × List Asked) × D) (r : Res Bytes), G w → Is d k t →
    At w d p → readExactLoop (loggedDev dev).read fuel buf ((w, l), d) = (s', r) →
    ∃ reads, s'.1.2 = l ++ reads ∧ (∀ a ∈ reads, ∃ k n, a = Asked.read k n ∧ k ≤ buf.length) ∧
      bytesReturned reads ≤ buf.length := by
  intro fuel
  induction fuel with
  | zero =>
    intro buf w l d p s' r _ _ _ h
    cases h
    exact ⟨[], (List.append_nil _).symm, fun a ha => (by cases ha), Nat.zero_le _⟩
  | succ fuel ih =>
    intro buf w l d p s' r hG hI hat h
    unfold readExactLoop at h
    by_cases hb : buf = []
    · rw [if_pos hb] at h
      cases h
      exact ⟨[], (List.append_nil _).symm, fun a ha => (by cases ha), Nat.zero_le _⟩
    rw [if_neg hb] at h
    rcases hx : dev.read buf (w, d) with ⟨⟨w1, d1⟩, r1⟩
    have hread : (loggedDev dev).read buf ((w, l), d) =
        (((w1, l ++ [.read buf.length (returnedBytes r1)]), d1), r1) := logged_read l hx
    have hone : ∀ a ∈ [Asked.read buf.length (returnedBytes r1)],
        ∃ k n, a = Asked.read k n ∧ k ≤ buf.length := by
      intro a ha
      rw [List.mem_singleton.1 ha]
      exact ⟨_, _, rfl, Nat.le_refl _⟩
    obtain ⟨hG1, hI1, h1⟩ := hd.read hG hI hat buf hx
    rcases h1 with ⟨j, buf', p', rfl, hsr, hat1⟩ | ⟨-, e, rfl⟩
    · rw [SM.bind_ok (h := hread)] at h
      simp only at h
      have hle := hsr.le
      have hsum : bytesReturned [Asked.read buf.length (returnedBytes (.ok (j, buf')))] = j := rfl
      by_cases hj : j = 0
      · rw [if_pos hj] at h
        cases h
        exact ⟨_, rfl, hone, by rw [hsum]; omega⟩
      rw [if_neg hj] at h
      have hlen : buf'.length = buf.length := by
        have := hsr.inside (by omega)
        rw [hsr.data, List.length_append, List.length_take, List.length_drop, List.length_drop]
        omega
      rw [if_neg (by omega)] at h
      have hdl : (buf'.drop j).length = buf.length - j := by rw [List.length_drop, hlen]
      rcases hy : readExactLoop (loggedDev dev).read fuel (buf'.drop j)
        ((w1, l ++ [.read buf.length (returnedBytes (.ok (j, buf')))]), d1) with ⟨s2, r2⟩
      obtain ⟨reads, h2, h3, h4⟩ := ih _ _ _ _ _ _ _ hG1 hI1 hat1 hy
      have hs : s' = s2 := by
        cases r2 with
        | ok b => rw [SM.bind_ok (h := hy)] at h; cases h; rfl
        | err e => rw [SM.bind_err (h := hy)] at h; cases h; rfl
        | panic => rw [SM.bind_panic (h := hy)] at h; cases h; rfl
      subst hs
      refine ⟨_ :: reads, by rw [h2, List.append_assoc]; rfl, ?_, ?_⟩
      · intro a ha
        rcases List.mem_cons.1 ha with rfl | ha
        · exact ⟨_, _, rfl, Nat.le_refl _⟩
        · obtain ⟨x, y, h5, h6⟩ := h3 a ha
          exact ⟨x, y, h5, by omega⟩
      · rw [← List.singleton_append, bytesReturned_append, hsum]
        omega
    · rw [SM.bind_err (h := hread)] at h
      cases h
      exact ⟨_, rfl, hone, Nat.zero_le _⟩

/-- Seeking to a place and filling 4096 bytes. -/
theorem place_logged (hd : StreamDevSpec F dev G Is At) {k : Disk} {t : Bytes} {w : W} {d : D} (l : List Asked)
    {off : Nat} (hG : G w) (hI : Is d k t) (hoff : off + 4096 ≤ k.content.length) :
    ∃ w' d' asked, G w' ∧ Is d' k t ∧ Asks 1 4096 [off] asked ∧
      ((F ∧ ∃ e, (loggedDev dev).seek (.start off) ((w, l), d) = (((w', l ++ asked), d'), .err e)) ∨
       ∃ s1 q, (loggedDev dev).seek (.start off) ((w, l), d) = (s1, .ok q) ∧
        ((F ∧ ∃ e, readExact (loggedDev dev).read (zeros 4096) s1 = (((w', l ++ asked), d'), .err e)) ∨
         readExact (loggedDev dev).read (zeros 4096) s1 =
          (((w', l ++ asked), d'), .ok (slice k.content off 4096)))) := by
  rcases hs : dev.seek (.start off) (w, d) with ⟨⟨w1, d1⟩, r⟩
  have hls := logged_seek l hs
  obtain ⟨hG1, hI1, h⟩ := hd.seek hG hI off (by omega) hs
  rcases h with ⟨rfl, hA⟩ | ⟨hF, e, rfl⟩
  case inr =>
    refine ⟨w1, d1, [.seek (.start off)], hG1, hI1, ?_, .inl ⟨hF, e, hls⟩⟩
    have := Asks.cons (bs := 1) (m := 4096) off [] [] [] (fun a ha => by cases ha) (Nat.zero_le _) .nil
    rwa [Nat.mul_one] at this
  have hz : (zeros 4096).length = 4096 := List.length_replicate
  obtain ⟨⟨w2, l2⟩, d2, hG2, hI2, h⟩ := streamDev_readExact (loggedStream_spec hd) (w := (w1, l ++ [.seek (.start off)])) hG1 hI1 hA
    4096 hoff
  have key : ∀ r, readExact (loggedDev dev).read (zeros 4096) ((w1, l ++ [.seek (.start off)]), d1) =
      (((w2, l2), d2), r) → ∃ asked, l2 = l ++ asked ∧ Asks 1 4096 [off] asked := by
    intro r hr
    obtain ⟨reads, h2, h3, h4⟩ := readExact_logged hd _ _ _ _ _ _ _ _ hG1 hI1 hA hr
    rw [hz] at h3 h4
    refine ⟨.seek (.start off) :: (reads ++ []), ?_, ?_⟩
    · rw [List.append_nil, ← List.singleton_append, ← List.append_assoc]
      exact h2
    · have := Asks.cons (bs := 1) (m := 4096) off [] reads [] h3 h4 .nil
      rwa [Nat.mul_one] at this
  rcases h with ⟨hF, e, h⟩ | ⟨-, h⟩
  · obtain ⟨asked, rfl, ha⟩ := key _ h
    exact ⟨w2, d2, asked, hG2, hI2, ha, .inr ⟨_, _, hls, .inl ⟨hF, e, h⟩⟩⟩
  · obtain ⟨asked, rfl, ha⟩ := key _ h
    exact ⟨w2, d2, asked, hG2, hI2, ha, .inr ⟨_, _, hls, .inr h⟩⟩

/-- The version-1 probes. -/
theorem probeV1_logged (hd : StreamDevSpec F dev G Is At) {k : Disk} {t : Bytes} : ∀ (probes : List (Nat × Nat))
    (w : W) (l : List Asked) (d : D) (s : (W × List Asked) × D) (r : Res (Option SuperblockV1)), G w → Is d k t →
    (∀ q ∈ probes, q.2 + 4096 ≤ k.content.length) →
    MdDevice.probeV1 (loggedDev dev) probes ((w, l), d) = (s, r) →
    G s.1.1 ∧ Is s.2 k t ∧ ∃ xs asked, s.1.2 = l ++ asked ∧ Asks 1 4096 xs asked ∧ xs <+: probes.map Prod.snd ∧
      (r = .ok none → xs = probes.map Prod.snd ∧ (¬ F → ∀ x ∈ xs, ¬ V1At k.content x)) ∧
      (∀ b, r = .ok (some b) → ∃ ys x, xs = ys ++ [x] ∧ V1At k.content x ∧ (¬ F → ∀ y ∈ ys, ¬ V1At k.content y)) := by
  intro probes
  induction probes with
  | nil =>
    intro w l d s r hG hI _ h
    cases h
    exact ⟨hG, hI, [], [], (List.append_nil _).symm, .nil, List.prefix_rfl, fun _ => ⟨rfl, fun _ x hx => by cases hx⟩,
      fun b hb => by cases hb⟩
  | cons q rest ih =>
    obtain ⟨minor, off⟩ := q
    intro w l d s r hG hI hin h
    rw [probeV1_cons] at h
    have hoff : off + 4096 ≤ k.content.length := hin (minor, off) List.mem_cons_self
    obtain ⟨w2, d2, asked, hG2, hI2, ha, h1⟩ := place_logged hd l hG hI hoff
    rcases h1 with ⟨hF, e, h1⟩ | ⟨s1, q, h1, h2⟩
    · rw [SM.bind_err (h := h1)] at h
      cases h
      exact ⟨hG2, hI2, [off], asked, rfl, ha, ⟨_, rfl⟩, fun h => (by cases h), fun _ h => (by cases h)⟩
    rw [SM.bind_ok (h := h1)] at h
    have hnone : (F ∨ ¬ V1At k.content off) →
        MdDevice.probeV1 (loggedDev dev) rest ((w2, l ++ asked), d2) = (s, r) →
        G s.1.1 ∧ Is s.2 k t ∧ ∃ xs asked, s.1.2 = l ++ asked ∧ Asks 1 4096 xs asked ∧
          xs <+: ((minor, off) :: rest).map Prod.snd ∧
          (r = .ok none → xs = ((minor, off) :: rest).map Prod.snd ∧ (¬ F → ∀ x ∈ xs, ¬ V1At k.content x)) ∧
          (∀ b, r = .ok (some b) → ∃ ys x, xs = ys ++ [x] ∧ V1At k.content x ∧
            (¬ F → ∀ y ∈ ys, ¬ V1At k.content y)) := by
      intro hF hr
      obtain ⟨hG3, hI3, xs, asked', h3, h4, h5, h6, h7⟩ := ih w2 _ d2 s r hG2 hI2
        (fun q hq => hin q (List.mem_cons_of_mem _ hq)) hr
      refine ⟨hG3, hI3, off :: xs, asked ++ asked', by rw [h3, List.append_assoc], asks_append ha h4,
        List.cons_prefix_cons.2 ⟨rfl, h5⟩, fun hr => ?_, fun b hb => ?_⟩
      · obtain ⟨rfl, h8⟩ := h6 hr
        refine ⟨rfl, fun hn x hx => ?_⟩
        rcases List.mem_cons.1 hx with rfl | hx
        · exact hF.resolve_left hn
        · exact h8 hn x hx
      · obtain ⟨ys, x, rfl, h8, h9⟩ := h7 b hb
        refine ⟨off :: ys, x, rfl, h8, fun hn y hy => ?_⟩
        rcases List.mem_cons.1 hy with rfl | hy
        · exact hF.resolve_left hn
        · exact h9 hn y hy
    rcases h2 with ⟨hF, e, h2⟩ | h2
    · have hr : SuperblockV1.read (loggedDev dev).read minor s1 = (((w2, l ++ asked), d2), .err e) :=
        SM.bind_err (h := h2) _
      rw [SM.bind_ok (s' := ((w2, l ++ asked), d2)) (a := none) (h := by simp only [SM.attempt, hr])] at h
      exact hnone (.inl hF) h
    have h0 : slice (slice k.content off 4096) 0 4 = slice k.content off 4 := by
      rw [slice_slice (by decide)]; rfl
    have h4 : slice (slice k.content off 4096) 4 4 = slice k.content (off + 4) 4 :=
      slice_slice (by decide)
    have hv : (SuperblockV1.mk (slice k.content off 4096) minor).valid =
        decide (leNat (slice k.content off 4) = 0xa92b4efc ∧
          leNat (slice k.content (off + 4) 4) = 1) := by
      rw [Bool.decide_and, ← h0, ← h4]; rfl
    by_cases hc : leNat (slice k.content off 4) = 0xa92b4efc ∧
          leNat (slice k.content (off + 4) 4) = 1
    · have hr : SuperblockV1.read (loggedDev dev).read minor s1 =
          (((w2, l ++ asked), d2), .ok ⟨slice k.content off 4096, minor⟩) := by
        unfold SuperblockV1.read
        rw [SM.bind_ok (h := h2), hv, decide_eq_true hc]; rfl
      rw [SM.bind_ok (s' := ((w2, l ++ asked), d2)) (a := some ⟨slice k.content off 4096, minor⟩)
        (h := by simp only [SM.attempt, hr])] at h
      cases h
      exact ⟨hG2, hI2, [off], asked, rfl, ha, ⟨_, rfl⟩, fun h => (by cases h),
        fun _ _ => ⟨[], off, rfl, hc, fun _ y hy => by cases hy⟩⟩
    · have hr : SuperblockV1.read (loggedDev dev).read minor s1 = (((w2, l ++ asked), d2), .err .invalidData) := by
        unfold SuperblockV1.read
        rw [SM.bind_ok (h := h2), hv, decide_eq_false hc]; rfl
      rw [SM.bind_ok (s' := ((w2, l ++ asked), d2)) (a := none) (h := by simp only [SM.attempt, hr])] at h
      exact hnone (.inr hc) h

/-- The version-0 probe. -/
theorem probeV0_logged (hd : StreamDevSpec F dev G Is At) {k : Disk} {t : Bytes} {w : W} {l : List Asked} {d : D}
    {s : (W × List Asked) × D} {r : Res (Option SuperblockV0)} (hG : G w) (hI : Is d k t)
    (hlt : k.content.length < U64) (hsz : 65536 ≤ k.content.length)
    (h : MdDevice.probeV0 (loggedDev dev) k.content.length ((w, l), d) = (s, r)) :
    G s.1.1 ∧ Is s.2 k t ∧ ∃ off asked, Place090 k.content.length off ∧ s.1.2 = l ++ asked ∧ Asks 1 4096 [off] asked ∧
      (∀ b, r = .ok (some b) → ∃ e, V0At k.content off e) := by
  unfold MdDevice.probeV0 at h
  rw [if_pos hsz, v0Probe_eq hlt] at h
  have hpl := place090 hsz
  generalize k.content.length / 65536 * 65536 - 65536 = off at hpl h
  have hle : off + 65536 ≤ k.content.length := hpl.2.1
  obtain ⟨w2, d2, asked, hG2, hI2, ha, h1⟩ := place_logged hd l hG hI (off := off) (by omega)
  rcases h1 with ⟨hF, e, h1⟩ | ⟨s1, q, h1, h2⟩
  · rw [SM.bind_err (h := h1)] at h
    cases h
    exact ⟨hG2, hI2, off, asked, hpl, rfl, ha, fun _ h => by cases h⟩
  rw [SM.bind_ok (h := h1)] at h
  rcases h2 with ⟨hF, e, h2⟩ | h2
  · have hr : SuperblockV0.read (loggedDev dev).read s1 = (((w2, l ++ asked), d2), .err e) := SM.bind_err (h := h2) _
    simp only [SM.attempt, hr] at h
    cases h
    exact ⟨hG2, hI2, off, asked, hpl, rfl, ha, fun _ h => by cases h⟩
  · have hr : SuperblockV0.read (loggedDev dev).read s1 =
        (if (SuperblockV0.decode (slice k.content off 4096)).valid = true then
          (((w2, l ++ asked), d2), .ok (SuperblockV0.decode (slice k.content off 4096)))
        else (((w2, l ++ asked), d2), .err .invalidData)) := by
      unfold SuperblockV0.read
      rw [show v0Layout.size = 4096 from rfl, SM.bind_ok (h := h2)]
      split <;> rfl
    by_cases hc : (SuperblockV0.decode (slice k.content off 4096)).valid = true
    · rw [if_pos hc] at hr
      simp only [SM.attempt, hr] at h
      cases h
      exact ⟨hG2, hI2, off, asked, hpl, rfl, ha, fun _ _ => (v0_decode_valid_iff _).mpr hc⟩
    · rw [if_neg hc] at hr
      simp only [SM.attempt, hr] at h
      cases h
      exact ⟨hG2, hI2, off, asked, hpl, rfl, ha, fun _ h => by cases h⟩

end

section
variable [Build] {W D : Type} {F : Prop} {dev : StreamDev W D} {G : W → Prop} {Is : D → Bytes → Prop}
  {At : W → D → Nat → Prop}
namespace Ext4Fs

omit [Build] in
/-- The group descriptors are read one after the other. -/
theorem readGroups_logged (hv : VolumeSpec F dev G Is At) {c : Bytes} {size : Nat} : ∀ (n : Nat) (w : W)
    (l : List Asked) (d : D) (p : Nat) (s : (W × List Asked) × D) (r : Res (List BlockGroup)), G w → Is d c →
    At w d p → readGroups (loggedDev dev) size n ((w, l), d) = (s, r) →
    ∃ reads, s.1.2 = l ++ reads ∧ (∀ a ∈ reads, ∃ k m, a = Asked.read k m ∧ k ≤ size) ∧
      bytesReturned reads ≤ n * size := by
  intro n
  induction n with
  | zero =>
    intro w l d p s r _ _ _ h
    cases h
    exact ⟨[], (List.append_nil _).symm, fun a ha => (by cases ha), Nat.zero_le _⟩
  | succ n ih =>
    intro w l d p s r hG hd hA h
    have hz : (zeros size).length = size := List.length_replicate
    obtain ⟨⟨w1, l1⟩, d1, hG1, hI1, h1⟩ := volume_readExact (loggedDev_spec hv) (w := (w, l)) hG hd hA (zeros size)
    have key : ∀ r1, readExact (loggedDev dev).read (zeros size) ((w, l), d) = (((w1, l1), d1), r1) →
        ∃ reads, l1 = l ++ reads ∧ (∀ a ∈ reads, ∃ k m, a = Asked.read k m ∧ k ≤ size) ∧
          bytesReturned reads ≤ size := by
      intro r1 hr
      have := readExact_log hv _ _ _ _ _ _ _ _ hG hd hA hr
      rwa [hz] at this
    have hmul : (n + 1) * size = n * size + size := Nat.succ_mul n size
    unfold readGroups at h
    rcases h1 with ⟨hF, e, h1⟩ | ⟨hl, -, h1⟩ | ⟨-, h2, h1⟩
    · obtain ⟨reads, rfl, h3, h4⟩ := key _ h1
      rw [SM.bind_err (h := h1)] at h
      cases h
      exact ⟨reads, rfl, h3, by omega⟩
    · obtain ⟨reads, rfl, h3, h4⟩ := key _ h1
      rw [SM.bind_err (h := h1)] at h
      cases h
      exact ⟨reads, rfl, h3, by omega⟩
    · obtain ⟨reads, rfl, h3, h4⟩ := key _ h1
      rw [SM.bind_ok (h := h1)] at h
      rcases hx : readGroups (loggedDev dev) size n ((w1, l ++ reads), d1) with ⟨s2, r2⟩
      obtain ⟨reads', h5, h6, h7⟩ := ih _ _ _ _ _ _ hG1 hI1 h2 hx
      have hs : s = s2 := by
        cases r2 with
        | ok b => rw [SM.bind_ok (h := hx)] at h; cases h; rfl
        | err e => rw [SM.bind_err (h := hx)] at h; cases h; rfl
        | panic => rw [SM.bind_panic (h := hx)] at h; cases h; rfl
      subst hs
      refine ⟨reads ++ reads', by rw [h5, List.append_assoc], fun a ha => ?_, by rw [bytesReturned_append]; omega⟩
      rcases List.mem_append.1 ha with ha | ha
      · exact h3 a ha
      · exact h6 a ha

theorem openBody_logged (hv : VolumeSpec F dev G Is At) {c : Bytes} (hb : TableChecked c) {w : W} {d : D}
    {l : List Asked} {s : (W × List Asked) × D} {r : Res (Ext4Superblock × List BlockGroup)} (hG : G w) (hI : Is d c)
    (h : openBody (loggedDev dev) ((w, l), d) = (s, r)) :
    ∃ asked, Asks 1 1024 [1024] asked ∧
      ((s.1.2 = l ++ asked ∧ ∀ x, r ≠ .ok x) ∨
       (2048 ≤ c.length ∧ Ext4Readable (sbOf c) ∧
        ∃ reads, s.1.2 = l ++ asked ++ .seek (.start (groupTableOf (sbOf c))) :: reads ∧
          (∀ a ∈ reads, ∃ k n, a = .read k n ∧ k ≤ le (sbOf c) 0xfe 2) ∧
          bytesReturned reads ≤ groupsOf (sbOf c) * le (sbOf c) 0xfe 2)) := by
  unfold openBody at h
  rcases hs : dev.seek (.start 1024) (w, d) with ⟨⟨w1, d1⟩, r1⟩
  have hls := logged_seek l hs
  obtain ⟨hG1, hI1, h1⟩ := hv.seek hG hI 1024 (by omega) hs
  rcases h1 with ⟨q, rfl, hA1, hq1, hq2⟩ | ⟨h1, e, rfl⟩
  rotate_left
  · rw [SM.bind_err (h := hls)] at h
    cases h
    exact ⟨[.seek (.start 1024)], .cons 1024 [] [] [] (fun a ha => by cases ha) (Nat.zero_le _) .nil,
      .inl ⟨rfl, fun x h => by cases h⟩⟩
  rw [SM.bind_ok (h := hls)] at h
  obtain ⟨⟨w2, l2⟩, d2, r2, h2, hG2, hI2, h3⟩ := sb_read_spec (loggedDev_spec hv)
    (w := (w1, l ++ [.seek (.start 1024)])) hG1 hI1 hA1
  have hlog : ∃ asked, l2 = l ++ asked ∧ Asks 1 1024 [1024] asked := by
    have hsz : ext4SbLayout.size = 1024 := by decide +kernel
    have hz : (zeros 1024).length = 1024 := List.length_replicate
    rcases hx : readExact (loggedDev dev).read (zeros 1024) ((w1, l ++ [.seek (.start 1024)]), d1) with ⟨s3, r3⟩
    have h4 := readExact_log hv _ _ _ _ _ _ _ _ hG1 hI1 hA1 hx
    rw [hz] at h4
    obtain ⟨reads, h4, h5, h6⟩ := h4
    have hs3 : s3 = ((w2, l2), d2) := by
      unfold Ext4Superblock.read at h2
      rw [hsz] at h2
      cases r3 with
      | err e => rw [SM.bind_err (h := hx)] at h2; cases h2; rfl
      | panic => rw [SM.bind_panic (h := hx)] at h2; cases h2; rfl
      | ok b =>
        rw [SM.bind_ok (h := hx)] at h2
        obtain ⟨v, hval⟩ := (Ext4Superblock.mk b).valid_some
        rw [hval] at h2
        rw [SM.bind_ok (h := (rfl : (SM.lift (.ok v) : SM ((W × List Asked) × D) Bool) s3 = (s3, .ok v)))] at h2
        cases v with
        | true => cases h2; rfl
        | false => cases h2; rfl
    rw [hs3] at h4
    refine ⟨.seek (.start 1024) :: (reads ++ []), ?_, .cons 1024 [] reads [] h5 h6 .nil⟩
    rw [List.append_nil, ← List.singleton_append, ← List.append_assoc]
    exact h4
  obtain ⟨asked, rfl, hasked⟩ := hlog
  refine ⟨asked, hasked, ?_⟩
  rcases h3 with ⟨h3, e, rfl⟩ | ⟨hp, hok, rfl⟩
  · rw [SM.bind_err (h := h2)] at h
    cases h
    exact .inl ⟨rfl, fun x h => by cases h⟩
  have hq : q = 1024 := by
    by_contra hne
    have : ¬ 1024 ≤ c.length := fun h => hne (hq1 h)
    have := hq2 (by omega)
    omega
  subst hq
  have hlong : 2048 ≤ c.length := hp
  rw [SM.bind_ok (h := h2)] at h
  change Ext4SbOk (sbOf c) at hok
  obtain ⟨sb, hsb⟩ : ∃ sb : Ext4Superblock, sb = ⟨slice c 1024 1024⟩ := ⟨_, rfl⟩
  have hsbb : sb.bytes = sbOf c := by rw [hsb]; rfl
  rw [← hsb] at h
  have hval : sb.valid = .ok true := sb.valid_iff.2 (hsbb ▸ hok)
  have hbpg : sb.blocksPerGroup = le (sbOf c) 0x20 4 := by
    rw [← hsbb]; exact Ext4Superblock.get_at (by decide +kernel) sb
  have hds : sb.groupDescriptorSize = le (sbOf c) 0xfe 2 := by
    rw [← hsbb]; exact Ext4Superblock.get_at (by decide +kernel) sb
  have hfd : sb.firstDataBlock = le (sbOf c) 0x14 4 := by
    rw [← hsbb]; exact Ext4Superblock.get_at (by decide +kernel) sb
  have hblocks : sb.blocksCount = blocksOf (sbOf c) := by
    rw [← hsbb]; exact (C56_wide sb).1
  have hbs : sb.blockSizeBytes = .ok (blockSizeOf (sbOf c)) := by
    rw [← hsbb]; exact (C55_sizes sb hval).1
  by_cases h0 : le (sbOf c) 0x20 4 = 0
  · have hdiv : (SM.lift (divCeilP sb.blocksCount sb.blocksPerGroup) : SM ((W × List Asked) × D) Nat)
        ((w2, l ++ asked), d2) = (((w2, l ++ asked), d2), .panic) := by
      rw [SM.lift_apply, divCeilP, hbpg, if_pos h0]
    rw [SM.bind_panic (h := hdiv)] at h
    cases h
    exact .inl ⟨rfl, fun x h => by cases h⟩
  have hdiv : (SM.lift (divCeilP sb.blocksCount sb.blocksPerGroup) : SM ((W × List Asked) × D) Nat)
      ((w2, l ++ asked), d2) = (((w2, l ++ asked), d2), .ok (groupsOf (sbOf c))) := by
    rw [SM.lift_apply, divCeilP, hbpg, if_neg h0, hblocks]; rfl
  rw [SM.bind_ok (h := hdiv)] at h
  by_cases hu : unsupported sb = true
  · rw [if_pos hu] at h
    cases h
    exact .inl ⟨rfl, fun x h => by cases h⟩
  have hread : Ext4Readable (sbOf c) := by
    rw [← hsbb]; exact (unsupported_iff sb hval).1 (by simpa using hu)
  rw [if_neg hu, hbs] at h
  rw [SM.bind_ok (h := (rfl : (SM.lift (.ok (blockSizeOf (sbOf c))) : SM ((W × List Asked) × D) Nat)
    ((w2, l ++ asked), d2) = (((w2, l ++ asked), d2), .ok (blockSizeOf (sbOf c)))))] at h
  by_cases hov : groupTableOf (sbOf c) < U64
  rotate_left
  · have hm : (SM.lift (mul64 (sb.firstDataBlock + 1) (blockSizeOf (sbOf c))) : SM ((W × List Asked) × D) Nat)
        ((w2, l ++ asked), d2) = (((w2, l ++ asked), d2), .panic) := by
      rw [SM.lift_apply, mul64, hfd]
      exact congrArg _ ((if_neg hov).trans (if_pos (hb.resolve_right hov)))
    rw [SM.bind_panic (h := hm)] at h
    cases h
    exact .inl ⟨rfl, fun x h => by cases h⟩
  have hm : (SM.lift (mul64 (sb.firstDataBlock + 1) (blockSizeOf (sbOf c))) : SM ((W × List Asked) × D) Nat)
      ((w2, l ++ asked), d2) = (((w2, l ++ asked), d2), .ok (groupTableOf (sbOf c))) := by
    rw [SM.lift_apply, mul64, hfd]; exact congrArg _ (if_pos hov)
  rw [SM.bind_ok (h := hm)] at h
  right
  refine ⟨hlong, hread, ?_⟩
  rcases hs3 : dev.seek (.start (groupTableOf (sbOf c))) (w2, d2) with ⟨⟨w3, d3⟩, r3⟩
  have hls3 := logged_seek (l ++ asked) hs3
  obtain ⟨hG3, hI3, h4⟩ := hv.seek hG2 hI2 _ hov hs3
  rcases h4 with ⟨q, rfl, hA3, -⟩ | ⟨h4, e, rfl⟩
  rotate_left
  · rw [SM.bind_err (h := hls3)] at h
    cases h
    exact ⟨[], rfl, fun a ha => (by cases ha), Nat.zero_le _⟩
  rw [SM.bind_ok (h := hls3)] at h
  cases hcap : withCapacity (groupsOf (sbOf c)) groupLayout.size with
  | err e =>
    rw [hcap, SM.bind_err (e := e) (s' := ((w3, l ++ asked ++ [.seek (.start (groupTableOf (sbOf c)))]), d3))
      (h := rfl)] at h
    cases h
    exact ⟨[], rfl, fun a ha => (by cases ha), Nat.zero_le _⟩
  | panic =>
    rw [hcap, SM.bind_panic (s' := ((w3, l ++ asked ++ [.seek (.start (groupTableOf (sbOf c)))]), d3))
      (h := rfl)] at h
    cases h
    exact ⟨[], rfl, fun a ha => (by cases ha), Nat.zero_le _⟩
  | ok u =>
  rw [hcap, SM.bind_ok (a := u) (s' := ((w3, l ++ asked ++ [.seek (.start (groupTableOf (sbOf c)))]), d3))
      (h := rfl), hds] at h
  rcases hx : readGroups (loggedDev dev) (le (sbOf c) 0xfe 2) (groupsOf (sbOf c))
    ((w3, l ++ asked ++ [.seek (.start (groupTableOf (sbOf c)))]), d3) with ⟨s5, r5⟩
  obtain ⟨reads, h5, h6, h7⟩ := readGroups_logged hv _ _ _ _ _ _ _ hG3 hI3 hA3 hx
  have hs5 : s = s5 := by
    cases r5 with
    | ok b => rw [SM.bind_ok (h := hx)] at h; cases h; rfl
    | err e => rw [SM.bind_err (h := hx)] at h; cases h; rfl
    | panic => rw [SM.bind_panic (h := hx)] at h; cases h; rfl
  subst hs5
  exact ⟨reads, by rw [h5, List.append_assoc]; rfl, h6, h7⟩

end Ext4Fs
end
end MdRecover
