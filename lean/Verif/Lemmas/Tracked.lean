import Verif.Lemmas.Probe
import Verif.Spec.Tracked

namespace MdRecover
open MdSpec

variable {W D : Type}

/-- Everything asked for since `t₀` was recorded satisfies `P`. -/
def AskedOnly (P : Nat × Nat → Prop) (s : (W × Track) × D) : Prop := ∀ x ∈ s.1.2.asked, P x

theorem tracked_readExactLoop {dev : StreamDev W D} (hl : KeepsLength dev) {P : Nat × Nat → Prop} {e lo : Nat}
    (hP : ∀ c n, lo ≤ c → c + n = e → P (c, n)) :
    ∀ (fuel : Nat) (buf : Bytes) (s : (W × Track) × D), lo ≤ s.1.2.cursor →
      s.1.2.cursor + buf.length = e → AskedOnly P s →
      AskedOnly P (readExactLoop (tracked dev).read fuel buf s).1
  | 0, buf, s, _, _, h => h
  | fuel + 1, buf, s, hlo, hc, h => by
    rw [readExactLoop]
    by_cases hb : buf = []
    · rw [if_pos hb]; exact h
    rw [if_neg hb]
    rcases hr : dev.read buf (s.1.1, s.2) with ⟨⟨w', d'⟩, r⟩
    cases r with
    | err k =>
      rw [SM.bind_err (e := k) (s' := ((w', ⟨s.1.2.cursor + 0, s.1.2.asked ++ [(s.1.2.cursor, buf.length)]⟩), d'))
        (h := by simp only [tracked, hr])]
      intro x hx
      rcases List.mem_append.mp hx with hx | hx
      · exact h x hx
      · rw [List.mem_singleton.mp hx]; exact hP _ _ hlo hc
    | panic =>
      rw [SM.bind_panic (s' := ((w', ⟨s.1.2.cursor + 0, s.1.2.asked ++ [(s.1.2.cursor, buf.length)]⟩), d'))
        (h := by simp only [tracked, hr])]
      intro x hx
      rcases List.mem_append.mp hx with hx | hx
      · exact h x hx
      · rw [List.mem_singleton.mp hx]; exact hP _ _ hlo hc
    | ok a =>
      obtain ⟨k, buf'⟩ := a
      have hlen := hl _ _ _ _ _ hr
      rw [SM.bind_ok (a := (k, buf'))
        (s' := ((w', ⟨s.1.2.cursor + k, s.1.2.asked ++ [(s.1.2.cursor, buf.length)]⟩), d'))
        (h := by simp only [tracked, hr])]
      have h' : AskedOnly P ((w', Track.mk (s.1.2.cursor + k)
          (s.1.2.asked ++ [(s.1.2.cursor, buf.length)])), d') := by
        intro x hx
        rcases List.mem_append.mp hx with hx | hx
        · exact h x hx
        · rw [List.mem_singleton.mp hx]; exact hP _ _ hlo hc
      simp only
      by_cases hk : k = 0
      · rw [if_pos hk]; exact h'
      rw [if_neg hk]
      by_cases hk2 : buf'.length < k
      · rw [if_pos hk2]; exact h'
      rw [if_neg hk2]
      have ih := tracked_readExactLoop hl hP fuel (buf'.drop k)
        ((w', Track.mk (s.1.2.cursor + k) (s.1.2.asked ++ [(s.1.2.cursor, buf.length)])), d')
        (Nat.le_trans hlo (Nat.le_add_right _ _)) (by rw [List.length_drop]; simp only; omega) h'
      rcases hq : readExactLoop (tracked dev).read fuel (buf'.drop k)
        ((w', Track.mk (s.1.2.cursor + k) (s.1.2.asked ++ [(s.1.2.cursor, buf.length)])), d')
        with ⟨s2, r2⟩
      rw [hq] at ih
      cases r2 with
      | ok b => rw [SM.bind_ok (h := hq)]; exact ih
      | err b => rw [SM.bind_err (h := hq)]; exact ih
      | panic => rw [SM.bind_panic (h := hq)]; exact ih

theorem asked_bind {α β : Type} {P : Nat × Nat → Prop} {m : SM ((W × Track) × D) α}
    {f : α → SM ((W × Track) × D) β} {s : (W × Track) × D} (h1 : AskedOnly P (m s).1)
    (h2 : ∀ a, (m s).2 = .ok a → AskedOnly P (f a (m s).1).1) : AskedOnly P ((m >>= f) s).1 := by
  rw [SM.bind_apply]
  rcases hm : m s with ⟨s', r⟩
  rw [hm] at h1 h2
  cases r with
  | ok a => exact h2 a rfl
  | err e => exact h1
  | panic => exact h1

theorem tracked_v1 {dev : StreamDev W D} (hl : KeepsLength dev) {P : Nat × Nat → Prop} {off : Nat}
    (hP : ∀ c n, off ≤ c → c + n = off + 4096 → P (c, n)) (minor : Nat)
    (s : (W × Track) × D) (hc : s.1.2.cursor = off) (h : AskedOnly P s) :
    AskedOnly P (SuperblockV1.read (tracked dev).read minor s).1 := by
  have h1 : AskedOnly P (readExact (tracked dev).read (zeros 4096) s).1 :=
    tracked_readExactLoop hl hP (zeros 4096).length (zeros 4096) s (by omega)
      (by rw [hc]; exact congrArg _ List.length_replicate) h
  unfold SuperblockV1.read
  revert h1
  generalize readExact (tracked dev).read (zeros 4096) = m
  intro h1
  refine asked_bind h1 fun b _ => ?_
  split <;> exact h1

theorem tracked_v0 {dev : StreamDev W D} (hl : KeepsLength dev) {P : Nat × Nat → Prop} {off : Nat}
    (hP : ∀ c n, off ≤ c → c + n = off + 4096 → P (c, n))
    (s : (W × Track) × D) (hc : s.1.2.cursor = off) (h : AskedOnly P s) :
    AskedOnly P (SuperblockV0.read (tracked dev).read s).1 := by
  have h1 : AskedOnly P (readExact (tracked dev).read (zeros 4096) s).1 :=
    tracked_readExactLoop hl hP (zeros 4096).length (zeros 4096) s (by omega)
      (by rw [hc]; exact congrArg _ List.length_replicate) h
  unfold SuperblockV0.read
  rw [show v0Layout.size = 4096 from rfl]
  revert h1
  generalize readExact (tracked dev).read (zeros 4096) = m
  intro h1
  refine asked_bind h1 fun b _ => ?_
  split <;> exact h1

theorem attempt_state {S α : Type} (m : SM S α) (s : S) : (SM.attempt m s).1 = (m s).1 := by
  unfold SM.attempt
  rcases m s with ⟨s', r⟩
  cases r <;> rfl

theorem tracked_seek {dev : StreamDev W D} (p : Nat) {P : Nat × Nat → Prop} {s : (W × Track) × D}
    (h : AskedOnly P s) : AskedOnly P ((tracked dev).seek (.start p) s).1 ∧
      ((tracked dev).seek (.start p) s).1.1.2.cursor = p := ⟨h, rfl⟩

theorem tracked_probeV1 {dev : StreamDev W D} (hl : KeepsLength dev) {P : Nat × Nat → Prop} :
    ∀ (ps : List (Nat × Nat)) (_ : ∀ q ∈ ps, ∀ c n, q.2 ≤ c → c + n = q.2 + 4096 → P (c, n))
      (s : (W × Track) × D), AskedOnly P s → AskedOnly P (MdDevice.probeV1 (tracked dev) ps s).1
  | [], _, s, h => h
  | (minor, off) :: rest, hp, s, h => by
    rw [probeV1_cons]
    obtain ⟨h1, hc⟩ := tracked_seek (dev := dev) off h
    refine asked_bind h1 fun a ha => ?_
    refine asked_bind ?_ fun r hr => ?_
    · rw [attempt_state]
      exact tracked_v1 hl (hp (minor, off) List.mem_cons_self) minor _ hc h1
    · have h2 : AskedOnly P ((SuperblockV1.read (tracked dev).read minor).attempt
          ((tracked dev).seek (SeekFrom.start off) s).1).1 := by
        rw [attempt_state]
        exact tracked_v1 hl (hp (minor, off) List.mem_cons_self) minor _ hc h1
      generalize ((SuperblockV1.read (tracked dev).read minor).attempt
          ((tracked dev).seek (SeekFrom.start off) s).1).1 = s2 at h2
      cases r with
      | some x => exact h2
      | none =>
        exact tracked_probeV1 hl rest (fun q hq => hp q (List.mem_cons_of_mem _ hq)) _ h2

theorem tracked_findSuperblock {dev : StreamDev W D} (hl : KeepsLength dev) {P : Nat × Nat → Prop}
    {size : Nat} (hsz : 12288 ≤ size)
    (hp : ∀ q ∈ MdDevice.v1Probes size, ∀ c n, q.2 ≤ c → c + n = q.2 + 4096 → P (c, n))
    (h0 : 65536 ≤ size → ∀ c n, MdDevice.v0Probe size ≤ c → c + n = MdDevice.v0Probe size + 4096 →
      P (c, n))
    (s : (W × Track) × D) (h : AskedOnly P s) :
    AskedOnly P (MdDevice.findSuperblock (tracked dev) size s).1 := by
  rw [findSuperblock_ge _ hsz]
  have h1 := tracked_probeV1 hl _ hp s h
  refine asked_bind h1 fun r hr => ?_
  generalize (MdDevice.probeV1 (tracked dev) (MdDevice.v1Probes size) s).1 = s1 at h1
  cases r with
  | some x => exact h1
  | none =>
    have h2 : AskedOnly P (MdDevice.probeV0 (tracked dev) size s1).1 := by
      unfold MdDevice.probeV0
      split
      · rename_i hs0
        obtain ⟨h2, hc⟩ := tracked_seek (dev := dev) (MdDevice.v0Probe size) h1
        refine asked_bind h2 fun a ha => ?_
        rw [attempt_state]
        exact tracked_v0 hl (h0 hs0) _ hc h2
      · exact h1
    refine asked_bind h2 fun r hr => ?_
    cases r <;> exact h2

end MdRecover
