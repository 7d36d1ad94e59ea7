import Verif.Lemmas.Raid6
import Verif.Spec.Parity

namespace MdRecover
open MdSpec

/-- A read callback that, given a 512-byte buffer, returns the stored 512 bytes of device `d < n` at
sector `sec`, or fails. -/
def FaithfulRead {σ : Type} (f : Raid6Algorithm.ReadSectorFn σ) (store : Nat → Nat → Bytes)
    (n sec : Nat) : Prop :=
  ∀ st d buf, d < n → buf.length = 512 → (store d sec).length = 512 ∧
    ((f st d sec buf).2 = .ok (512, store d sec) ∨ ∃ e, (f st d sec buf).2 = .err e)

/-- A read callback that, given a 512-byte buffer, always returns the stored 512 bytes. -/
def ReliableRead {σ : Type} (f : Raid6Algorithm.ReadSectorFn σ) (store : Nat → Nat → Bytes)
    (n sec : Nat) : Prop :=
  ∀ st d buf, d < n → buf.length = 512 → (store d sec).length = 512 ∧
    (f st d sec buf).2 = .ok (512, store d sec)

theorem ReliableRead.faithful {σ : Type} {f : Raid6Algorithm.ReadSectorFn σ}
    {store : Nat → Nat → Bytes} {n sec : Nat} (h : ReliableRead f store n sec) :
    FaithfulRead f store n sec :=
  fun st d buf hd hb => ⟨(h st d buf hd hb).1, .inl (h st d buf hd hb).2⟩

namespace Raid6Algorithm

/-- One successful step of the device loop. -/
theorem readBuffers_cons_ok {σ : Type} {f : ReadSectorFn σ} {sec d : Nat} {ds : List Nat}
    {s s' : σ} {b : Bytes} (h : f s d sec (zeros 512) = (s', .ok (b.length, b))) :
    readBuffers f sec s (d :: ds) =
      ((readBuffers f sec s' ds).1, (readBuffers f sec s' ds).2.bind fun bs => .ok (b :: bs)) := by
  rw [readBuffers, h]
  simp only [ne_eq, not_true_eq_false, if_false]
  rcases readBuffers f sec s' ds with ⟨s'', r⟩
  cases r <;> rfl

theorem readBuffers_faithful {σ : Type} {f : ReadSectorFn σ} {store : Nat → Nat → Bytes}
    {n sec : Nat} (hf : FaithfulRead f store n sec) :
    ∀ (ds : List Nat) (s : σ), (∀ d ∈ ds, d < n) →
      (readBuffers f sec s ds).2 = .ok (ds.map fun d => store d sec) ∨
        ∃ e, (readBuffers f sec s ds).2 = .err e
  | [], s, _ => .inl rfl
  | d :: ds, s, hds => by
    obtain ⟨hlen, h⟩ := hf s d (zeros 512) (hds d (by simp)) List.length_replicate
    rcases h with h | ⟨e, h⟩
    · have ih := readBuffers_faithful hf ds (f s d sec (zeros 512)).1
        (fun x hx => hds x (by simp [hx]))
      rcases hfe : f s d sec (zeros 512) with ⟨s', r⟩
      rw [hfe] at h ih
      simp only at h ih
      subst h
      rw [readBuffers, hfe]
      simp only [hlen, ne_eq, not_true_eq_false, if_false]
      rcases hre : readBuffers f sec s' ds with ⟨s'', r⟩
      rw [hre] at ih
      rcases ih with h | ⟨e, h⟩ <;> simp only at h <;> subst h
      · left; rfl
      · right; exact ⟨e, rfl⟩
    · right
      rcases hfe : f s d sec (zeros 512) with ⟨s', r⟩
      rw [hfe] at h
      simp only at h
      subst h
      rw [readBuffers, hfe]
      exact ⟨e, rfl⟩

theorem readBuffers_reliable {σ : Type} {f : ReadSectorFn σ} {store : Nat → Nat → Bytes}
    {n sec : Nat} (hf : ReliableRead f store n sec) :
    ∀ (ds : List Nat) (s : σ), (∀ d ∈ ds, d < n) →
      (readBuffers f sec s ds).2 = .ok (ds.map fun d => store d sec)
  | [], s, _ => rfl
  | d :: ds, s, hds => by
    obtain ⟨hlen, h⟩ := hf s d (zeros 512) (hds d (by simp)) List.length_replicate
    have ih := readBuffers_reliable hf ds (f s d sec (zeros 512)).1
      (fun x hx => hds x (by simp [hx]))
    rcases hfe : f s d sec (zeros 512) with ⟨s', r⟩
    rw [hfe] at h ih
    simp only at h ih
    subst h
    rw [readBuffers, hfe]
    simp only [hlen, ne_eq, not_true_eq_false, if_false]
    rcases hre : readBuffers f sec s' ds with ⟨s'', r⟩
    rw [hre] at ih
    simp only at ih
    subst ih
    rfl

/-- Success of the loop means success of every call, in order. -/
theorem readBuffers_ok_length {σ : Type} {f : ReadSectorFn σ} {sec : Nat} :
    ∀ (ds : List Nat) (s : σ) {s' : σ} {bufs : List Bytes},
      readBuffers f sec s ds = (s', .ok bufs) → bufs.length = ds.length
  | [], s, s', bufs, h => by
    simp only [readBuffers, Prod.mk.injEq, Res.ok.injEq] at h
    rw [← h.2]; rfl
  | d :: ds, s, s', bufs, h => by
    rw [readBuffers] at h
    rcases hfe : f s d sec (zeros 512) with ⟨s1, r⟩
    rw [hfe] at h
    cases r with
    | err e => simp at h
    | panic => simp at h
    | ok v =>
      obtain ⟨k, buf⟩ := v
      simp only at h
      split at h
      · simp at h
      · rcases hre : readBuffers f sec s1 ds with ⟨s2, r⟩
        rw [hre] at h
        cases r with
        | err e => simp at h
        | panic => simp at h
        | ok bs =>
          simp only [Prod.mk.injEq, Res.ok.injEq] at h
          rw [← h.2, List.length_cons, List.length_cons, readBuffers_ok_length ds s1 hre]

theorem foldl_xor_eq (l : List Bytes) (i : Nat) (a : UInt8) :
    l.foldl (fun acc b => acc ^^^ b.getD i 0) a = a ^^^ xorBytes (l.map fun b => b.getD i 0) := by
  induction l generalizing a with
  | nil => simp [xorBytes]
  | cons b l ih =>
    rw [List.foldl_cons, ih]
    simp [xorBytes, UInt8.xor_assoc]

theorem xorAt_eq (l : List Bytes) (i : Nat) :
    xorAt l i = xorBytes (l.map fun b => b.getD i 0) := by
  rw [xorAt, foldl_xor_eq]; simp

theorem zipIdx_map_range {α : Type} (g : Nat → α) (n : Nat) :
    ((List.range n).map g).zipIdx = (List.range n).map (fun d => (g d, d)) := by
  apply List.ext_getElem
  · simp
  · intro i h1 h2
    simp

theorem dataBuffers_map_range (g : Nat → Bytes) (n p q : Nat) :
    dataBuffers ((List.range n).map g) p q =
      ((List.range n).filter (fun d => !(d == p || d == q))).map g := by
  rw [dataBuffers, zipIdx_map_range, List.filter_map, List.map_map]
  rfl

end Raid6Algorithm

theorem row_role_cases {L n s : Nat} {row : List Role} (hn : 3 ≤ n)
    (h : raid6Row L n s = some row) {d : Nat} (hd : d < n) :
    row[d]? = some Role.P ∨ row[d]? = some Role.Q ∨ ∃ i, row[d]? = some (Role.D i) := by
  have hl := raid6Row_length hn h
  obtain ⟨r, hr⟩ : ∃ r, row[d]? = some r := ⟨row[d], by simp⟩
  rw [hr]
  cases r with
  | P => exact .inl rfl
  | Q => exact .inr (.inl rfl)
  | D i => exact .inr (.inr ⟨i, rfl⟩)

/-- The buffers the code XORs are those of the data devices of the layout table. -/
theorem filter_eq_dataDevices {L n s p q : Nat} {row : List Role} (hn : 3 ≤ n)
    (h : raid6Row L n s = some row) (hp : row[p]? = some Role.P) (hq : row[q]? = some Role.Q) :
    (List.range n).filter (fun d => !(d == p || d == q)) = dataDevices row := by
  have hl := raid6Row_length hn h
  have hnd := raid6Row_nodup hn h
  rw [dataDevices, hl]
  apply List.filter_congr
  intro d hd
  rw [List.mem_range] at hd
  rcases row_role_cases hn h hd with hr | hr | ⟨i, hr⟩
  · have : d = p := row_inj hnd hr hp
    simp [this, hp]
  · have : d = q := row_inj hnd hr hq
    simp [this, hq]
  · have h1 : d ≠ p := fun e => by rw [e, hp] at hr; cases hr
    have h2 : d ≠ q := fun e => by rw [e, hq] at hr; cases hr
    simp [h1, h2, hr]

namespace Raid6Algorithm

/-- Evaluation of the read when the device loop returns the stored sectors. -/
theorem readSector_eval {σ : Type} {L : Nat} {alg : Raid6Algorithm}
    {sector c n sec p q d : Nat} {row : List Role} {f : ReadSectorFn σ} {s s' : σ}
    {store : Nat → Nat → Bytes}
    (hn : 3 ≤ n) (hrow : raid6Row L n (sector / c / (n - 2)) = some row)
    (hcs : alg.computeSector sector c n = some (sec, p, q, d))
    (hp : row[p]? = some Role.P) (hq : row[q]? = some Role.Q) (hd : d < n)
    (hrb : readBuffers f sec s (List.range n) =
      (s', .ok ((List.range n).map fun d => store d sec)))
    : (PConsistent row store sec → alg.readSector sector c n f s = (s', .ok (store d sec))) ∧
      (¬ PConsistent row store sec → alg.readSector sector c n f s = (s', .err .invalidData)) := by
  have hpn : p < n := by
    have := (List.getElem?_eq_some_iff.mp hp).1
    rwa [raid6Row_length hn hrow] at this
  have hpe : ((List.range n).map fun d => store d sec)[p]? = some (store p sec) := by
    simp [hpn]
  have hde : ((List.range n).map fun d => store d sec)[d]? = some (store d sec) := by
    simp [hd]
  rw [readSector, hcs]
  simp only
  rw [hrb]
  simp only
  rw [hpe, hde]
  simp only
  rw [dataBuffers_map_range, filter_eq_dataDevices hn hrow hp hq]
  have hx : ∀ i, xorAt ((dataDevices row).map fun d => store d sec) i =
      xorBytes ((dataDevices row).map fun d => (store d sec).getD i 0) := by
    intro i; rw [xorAt_eq, List.map_map]; rfl
  have hall : ((List.range 512).all fun i =>
      xorAt ((dataDevices row).map fun d => store d sec) i == (store p sec).getD i 0) = true ↔
      ∀ i, i < 512 → xorBytes ((dataDevices row).map fun d => (store d sec).getD i 0) =
        (store p sec).getD i 0 := by
    rw [List.all_eq_true]
    constructor
    · intro h i hi
      have := h i (List.mem_range.mpr hi)
      rw [beq_iff_eq, hx] at this
      exact this
    · intro h i hi
      rw [beq_iff_eq, hx]
      exact h i (List.mem_range.mp hi)
  have hpc : PConsistent row store sec ↔
      ∀ i, i < 512 → xorBytes ((dataDevices row).map fun d => (store d sec).getD i 0) =
        (store p sec).getD i 0 := by
    constructor
    · intro h i hi; exact (h p hp i hi).symm
    · intro h p' hp' i hi
      rw [row_inj (raid6Row_nodup hn hrow) hp' hp]; exact (h i hi).symm
  constructor
  · intro hc
    rw [if_pos (hall.mpr (hpc.mp hc))]
  · intro hc
    rw [if_neg (fun e => hc (hpc.mpr (hall.mp e)))]

theorem readBuffers_bad {σ : Type} {f : ReadSectorFn σ} {sec k : Nat}
    (hbad : ∀ s m b, (f s k sec (zeros 512)).2 = .ok (m, b) → m ≠ b.length) :
    ∀ (ds : List Nat) (s : σ), k ∈ ds → ∀ bs, (readBuffers f sec s ds).2 ≠ .ok bs
  | [], s, h, _ => by simp at h
  | d :: ds, s, h, bs => by
    rw [readBuffers]
    rcases hf : f s d sec (zeros 512) with ⟨s', r⟩
    cases r with
    | err e => simp
    | panic => simp
    | ok v =>
      obtain ⟨m, b⟩ := v
      simp only
      split
      · simp
      · rename_i hm
        have hk : k ∈ ds := by
          rcases List.mem_cons.mp h with rfl | h
          · exact absurd (not_not.mp hm) (hbad s m b (by rw [hf]))
          · exact h
        have ih := readBuffers_bad hbad ds s' hk
        rcases hre : readBuffers f sec s' ds with ⟨s'', r⟩
        rw [hre] at ih
        cases r with
        | ok v => exact absurd rfl (ih v)
        | err e => simp
        | panic => simp

theorem readBuffers_no_panic {σ : Type} {f : ReadSectorFn σ}
    (hnp : ∀ s d sec buf, (f s d sec buf).2 ≠ .panic) (sec : Nat) :
    ∀ (ds : List Nat) (s : σ), (readBuffers f sec s ds).2 ≠ .panic
  | [], s => by simp [readBuffers]
  | d :: ds, s => by
    rw [readBuffers]
    have hnp' := hnp s d sec (zeros 512)
    rcases hf : f s d sec (zeros 512) with ⟨s', r⟩
    rw [hf] at hnp'
    cases r with
    | err e => simp
    | panic => exact absurd rfl hnp'
    | ok v =>
      obtain ⟨m, b⟩ := v
      simp only
      split
      · simp
      · have ih := readBuffers_no_panic hnp sec ds s'
        rcases hre : readBuffers f sec s' ds with ⟨s'', r⟩
        rw [hre] at ih
        cases r with
        | ok v => simp
        | err e => simp
        | panic => exact absurd rfl ih

end Raid6Algorithm

theorem C04_raid6_layout_numbers' (L : Nat) :
    (Raid6Algorithm.fromLayout L).isSome ↔ (raid6Row L 3 0).isSome := by
  unfold Raid6Algorithm.fromLayout raid6Row
  split <;> simp [raid5Row]

theorem xorBytes_map_eq_of_not_mem {k : Nat} {g h : Nat → UInt8} {l : List Nat} (hk : k ∉ l)
    (hs : ∀ d, d ≠ k → g d = h d) : xorBytes (l.map g) = xorBytes (l.map h) := by
  congr 1
  apply List.map_congr_left
  intro d hd
  exact hs d (fun e => hk (e ▸ hd))

/-- Changing exactly one summand changes the XOR. -/
theorem xorBytes_map_ne {k : Nat} {g h : Nat → UInt8} {l : List Nat} (hnd : l.Nodup) (hk : k ∈ l)
    (hs : ∀ d, d ≠ k → g d = h d) (hne : g k ≠ h k) : xorBytes (l.map g) ≠ xorBytes (l.map h) := by
  induction l with
  | nil => simp at hk
  | cons x l ih =>
    rw [List.nodup_cons] at hnd
    simp only [List.map_cons, xorBytes, List.foldr_cons]
    change g x ^^^ xorBytes (l.map g) ≠ h x ^^^ xorBytes (l.map h)
    by_cases hx : x = k
    · subst hx
      rw [xorBytes_map_eq_of_not_mem hnd.1 hs]
      intro e
      exact hne ((UInt8.xor_left_inj _).mp e)
    · rw [hs x hx]
      intro e
      refine ih hnd.2 ?_ ((UInt8.xor_right_inj _).mp e)
      rcases List.mem_cons.mp hk with rfl | h
      · exact absurd rfl hx
      · exact h

end MdRecover
