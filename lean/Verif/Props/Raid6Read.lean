import Verif.Lemmas.Raid6Read
import Verif.Model.Algorithm

/-! C11-C15: reading a sector of a RAID6 array through an arbitrary member-read callback. -/

namespace MdRecover
open MdSpec

/-- C11.  Every member returns its stored sectors, the P sector is the XOR of the data sectors at the
stripe's sector `(sector / (c * (n - 2))) * c + sector % c`: then the read returns the bytes of the
device which the layout table says holds data chunk `(sector / c) % (n - 2)`. -/
theorem C11_raid6_read_consistent {σ : Type} {L : Nat} {alg : Raid6Algorithm}
    {sector c n d : Nat} {row : List Role} {f : Raid6Algorithm.ReadSectorFn σ}
    {store : Nat → Nat → Bytes} (st : σ)
    (hL : Raid6Algorithm.fromLayout L = some alg) (hs : sector < U64) (hc : 0 < c) (hn : 3 ≤ n)
    (hn' : n < U32) (hlast : alg = .rotatingNRestart → sector / c / (n - 2) + 1 < U64)
    (hrow : raid6Row L n (sector / c / (n - 2)) = some row)
    (hd : row[d]? = some (Role.D (sector / c % (n - 2))))
    (hf : ReliableRead f store n (sector / (c * (n - 2)) * c + sector % c))
    (hcons : PConsistent row store (sector / (c * (n - 2)) * c + sector % c)) :
    (alg.readSector sector c n f st).2 =
      .ok (store d (sector / (c * (n - 2)) * c + sector % c)) := by
  rw [← Nat.div_div_eq_div_mul] at *
  have hcs := alg.computeSector_closed hs hc hn hn' hlast
  obtain ⟨row', hrow', hP, hQ, hD⟩ := raid6Row_get (s := sector / c / (n - 2)) hn hL
  rw [hrow] at hrow'; cases hrow'
  have hi : sector / c % (n - 2) < n - 2 := Nat.mod_lt _ (by omega)
  have hd' := row_inj (raid6Row_nodup hn hrow) hd (hD _ hi)
  have hrb := Raid6Algorithm.readBuffers_reliable hf (List.range n) st
    (fun x hx => List.mem_range.mp hx)
  have := (Raid6Algorithm.readSector_eval (s := st) (store := store) hn hrow hcs hP hQ
    (alg.dataOf_lt hn hi) (Prod.ext rfl hrb)).1 hcons
  rw [this, hd']

/-- C12, first half.  Members may fail at any time, but what they return is what they store: if the
read returns data then the stripe satisfies the P equation, and the data is the stored data. -/
theorem C12_raid6_read_checks_parity {σ : Type} {L : Nat} {alg : Raid6Algorithm}
    {sector c n : Nat} {row : List Role} {f : Raid6Algorithm.ReadSectorFn σ}
    {store : Nat → Nat → Bytes} {st : σ} {b : Bytes}
    (hL : Raid6Algorithm.fromLayout L = some alg) (hs : sector < U64) (hn' : n < U32)
    (hrow : raid6Row L n (sector / c / (n - 2)) = some row)
    (hf : FaithfulRead f store n (sector / (c * (n - 2)) * c + sector % c))
    (hok : (alg.readSector sector c n f st).2 = .ok b) :
    PConsistent row store (sector / (c * (n - 2)) * c + sector % c) ∧
      ∃ d, row[d]? = some (Role.D (sector / c % (n - 2))) ∧
        b = store d (sector / (c * (n - 2)) * c + sector % c) := by
  rw [← Nat.div_div_eq_div_mul] at *
  rcases hcs : alg.computeSector sector c n with _ | ⟨sec, p, q, d⟩
  · rw [Raid6Algorithm.readSector, hcs] at hok; cases hok
  obtain ⟨hc, hn, rfl, rfl, rfl, rfl⟩ := alg.computeSector_some hs hn' hcs
  obtain ⟨row', hrow', hP, hQ, hD⟩ := raid6Row_get (s := sector / c / (n - 2)) hn hL
  rw [hrow] at hrow'; cases hrow'
  have hi : sector / c % (n - 2) < n - 2 := Nat.mod_lt _ (by omega)
  rcases Raid6Algorithm.readBuffers_faithful hf (List.range n) st
    (fun x hx => List.mem_range.mp hx) with hrb | ⟨e, hrb⟩
  · have hev := Raid6Algorithm.readSector_eval (s := st) (store := store) hn hrow hcs hP hQ
      (alg.dataOf_lt hn hi) (Prod.ext rfl hrb)
    by_cases hcons : PConsistent row store (sector / c / (n - 2) * c + sector % c)
    · rw [hev.1 hcons] at hok
      exact ⟨hcons, _, hD _ hi, by cases hok; rfl⟩
    · rw [hev.2 hcons] at hok; cases hok
  · exfalso
    rcases hre : Raid6Algorithm.readBuffers f (sector / c / (n - 2) * c + sector % c) st
      (List.range n) with ⟨s', r⟩
    rw [hre] at hrb
    simp only at hrb
    subst hrb
    rw [Raid6Algorithm.readSector, hcs] at hok
    simp only [hre] at hok
    cases hok

/-- C12, second half.  Starting from a consistent stripe, change any of the 512 bytes of the sector of
one device that is not the Q device: the read answers InvalidData. -/
theorem C12_raid6_single_corruption_detected {σ : Type} {L : Nat} {alg : Raid6Algorithm}
    {sector c n k i : Nat} {row : List Role} {f : Raid6Algorithm.ReadSectorFn σ}
    {good bad : Nat → Nat → Bytes} (st : σ)
    (hL : Raid6Algorithm.fromLayout L = some alg) (hs : sector < U64) (hc : 0 < c) (hn : 3 ≤ n)
    (hn' : n < U32) (hlast : alg = .rotatingNRestart → sector / c / (n - 2) + 1 < U64)
    (hrow : raid6Row L n (sector / c / (n - 2)) = some row)
    (hgood : PConsistent row good (sector / (c * (n - 2)) * c + sector % c))
    (hk : k < n) (hkq : row[k]? ≠ some Role.Q)
    (hsame : ∀ d, d ≠ k → bad d (sector / (c * (n - 2)) * c + sector % c) =
      good d (sector / (c * (n - 2)) * c + sector % c))
    (hi : i < 512)
    (hdiff : (bad k (sector / (c * (n - 2)) * c + sector % c)).getD i 0 ≠
      (good k (sector / (c * (n - 2)) * c + sector % c)).getD i 0)
    (hf : ReliableRead f bad n (sector / (c * (n - 2)) * c + sector % c)) :
    (alg.readSector sector c n f st).2 = .err .invalidData := by
  rw [← Nat.div_div_eq_div_mul] at *
  have hcs := alg.computeSector_closed hs hc hn hn' hlast
  obtain ⟨row', hrow', hP, hQ, hD⟩ := raid6Row_get (s := sector / c / (n - 2)) hn hL
  rw [hrow] at hrow'; cases hrow'
  have hi' : sector / c % (n - 2) < n - 2 := Nat.mod_lt _ (by omega)
  have hrb := Raid6Algorithm.readBuffers_reliable hf (List.range n) st
    (fun x hx => List.mem_range.mp hx)
  have hev := (Raid6Algorithm.readSector_eval (s := st) (store := bad) hn hrow hcs hP hQ
    (alg.dataOf_lt hn hi') (Prod.ext rfl hrb)).2
  generalize sector / c / (n - 2) * c + sector % c = sec at *
  rw [hev]
  intro hbad
  have eb := hbad _ hP i hi
  have eg := hgood _ hP i hi
  have hnd : (dataDevices row).Nodup := List.Nodup.filter _ List.nodup_range
  rcases row_role_cases hn hrow hk with hr | hr | ⟨j, hr⟩
  · -- the P device itself
    have hkp := row_inj (raid6Row_nodup hn hrow) hr hP
    have : (dataDevices row).map (fun d => (bad d sec).getD i 0) =
        (dataDevices row).map (fun d => (good d sec).getD i 0) := by
      apply List.map_congr_left
      intro d hd
      rw [hsame d]
      rintro rfl
      simp [dataDevices, hr] at hd
    rw [this, ← eg, ← hkp] at eb
    exact hdiff eb
  · exact hkq hr
  · have hpk : alg.pOf n (sector / c / (n - 2)) ≠ k := by
      intro e; rw [e, hr] at hP; cases hP
    rw [hsame _ hpk, eg] at eb
    refine xorBytes_map_ne hnd ?_ (fun d hd => ?_) hdiff eb.symm
    · simp only [dataDevices, List.mem_filter, List.mem_range, raid6Row_length hn hrow, hr]
      exact ⟨hk, trivial⟩
    · rw [hsame d hd]

/-- C13.  If one member below the device count never gives a full sector (error or short count) at
the stripe's sector, no data is returned; if moreover members do not panic, an error is returned. -/
theorem C13_raid6_read_fails_with_member {σ : Type} (alg : Raid6Algorithm)
    {sector c n k : Nat} {f : Raid6Algorithm.ReadSectorFn σ} (st : σ)
    (hs : sector < U64) (hn' : n < U32) (hk : k < n)
    (hbad : ∀ s m b, (f s k (sector / (c * (n - 2)) * c + sector % c) (zeros 512)).2 = .ok (m, b) →
      m ≠ b.length) :
    (∀ b, (alg.readSector sector c n f st).2 ≠ .ok b) ∧
      ((∀ s d sec buf, (f s d sec buf).2 ≠ .panic) →
        ∃ e, (alg.readSector sector c n f st).2 = .err e) := by
  rw [← Nat.div_div_eq_div_mul] at hbad
  rcases hcs : alg.computeSector sector c n with _ | ⟨sec, p, q, d⟩
  · rw [Raid6Algorithm.readSector, hcs]
    exact ⟨fun b h => by (cases h), fun _ => ⟨_, rfl⟩⟩
  obtain ⟨hc, hn, rfl, rfl, rfl, rfl⟩ := alg.computeSector_some hs hn' hcs
  have hno := Raid6Algorithm.readBuffers_bad hbad (List.range n) st (List.mem_range.mpr hk)
  rcases hre : Raid6Algorithm.readBuffers f (sector / c / (n - 2) * c + sector % c) st
    (List.range n) with ⟨s', r⟩
  rw [Raid6Algorithm.readSector, hcs]
  simp only [hre]
  rw [hre] at hno
  cases r with
  | ok v => exact absurd rfl (hno v)
  | err e => exact ⟨fun b h => by (cases h), fun _ => ⟨e, rfl⟩⟩
  | panic =>
    refine ⟨fun b h => by (cases h), fun hnp => ?_⟩
    exact absurd (by rw [hre]) (Raid6Algorithm.readBuffers_no_panic hnp
      (sector / c / (n - 2) * c + sector % c) (List.range n) st)

/-- One member read: device, sector, and what the member answered. -/
structure MemberRead where
  device : Nat
  sector : Nat
  answer : Res (Nat × Bytes)

/-- The member gave a full sector. -/
def MemberRead.full (r : MemberRead) : Prop := ∃ b : Bytes, r.answer = .ok (b.length, b)

/-- The callback `f` instrumented to append each read to a log. -/
def logged {σ : Type} (f : Raid6Algorithm.ReadSectorFn σ) :
    Raid6Algorithm.ReadSectorFn (σ × List MemberRead) :=
  fun s d sec buf =>
    (((f s.1 d sec buf).1, s.2 ++ [⟨d, sec, (f s.1 d sec buf).2⟩]), (f s.1 d sec buf).2)

theorem logged_readBuffers {σ : Type} (f : Raid6Algorithm.ReadSectorFn σ) (sec : Nat) :
    ∀ (ds : List Nat) (s : σ) (log : List MemberRead),
      ∃ reads : List MemberRead,
        Raid6Algorithm.readBuffers (logged f) sec (s, log) ds =
          (((Raid6Algorithm.readBuffers f sec s ds).1, log ++ reads),
            (Raid6Algorithm.readBuffers f sec s ds).2) ∧
        reads.map (fun r => (r.device, r.sector)) = (ds.take reads.length).map (fun d => (d, sec)) ∧
        reads.length ≤ ds.length ∧
        (∀ r ∈ reads.dropLast, r.full) ∧
        ((∃ bs, (Raid6Algorithm.readBuffers f sec s ds).2 = .ok bs) →
          reads.length = ds.length ∧ ∀ r ∈ reads, r.full) ∧
        ((∀ bs, (Raid6Algorithm.readBuffers f sec s ds).2 ≠ .ok bs) →
          ∃ r, reads.getLast? = some r ∧ ¬ r.full)
  | [], s, log => ⟨[], by simp [Raid6Algorithm.readBuffers]⟩
  | d :: ds, s, log => by
    rcases hf : f s d sec (zeros 512) with ⟨s', r⟩
    cases r with
    | err e =>
      refine ⟨[⟨d, sec, .err e⟩], ?_⟩
      simp [Raid6Algorithm.readBuffers, logged, hf, MemberRead.full]
    | panic =>
      refine ⟨[⟨d, sec, .panic⟩], ?_⟩
      simp [Raid6Algorithm.readBuffers, logged, hf, MemberRead.full]
    | ok v =>
      obtain ⟨m, b⟩ := v
      by_cases hm : m = b.length
      · obtain ⟨reads, h1, h2, h3, h4, h5, h6⟩ :=
          logged_readBuffers f sec ds s' (log ++ [⟨d, sec, .ok (m, b)⟩])
        have hfull : MemberRead.full ⟨d, sec, .ok (m, b)⟩ := ⟨b, by rw [hm]⟩
        subst hm
        have e1 := Raid6Algorithm.readBuffers_cons_ok (f := logged f) (sec := sec) (d := d)
          (ds := ds) (s := (s, log)) (s' := (s', log ++ [⟨d, sec, .ok (b.length, b)⟩])) (b := b)
          (by simp only [logged, hf])
        have e2 := Raid6Algorithm.readBuffers_cons_ok (ds := ds) hf
        rw [e1, e2, h1]
        refine ⟨⟨d, sec, .ok (b.length, b)⟩ :: reads, ?_, ?_, ?_, ?_, ?_, ?_⟩
        · rcases hre : Raid6Algorithm.readBuffers f sec s' ds with ⟨s'', r⟩
          cases r <;> simp
        · simp [h2]
        · simpa using h3
        · intro r hr
          cases reads with
          | nil => simp at hr
          | cons r' rs =>
            rw [List.dropLast_cons₂] at hr
            rcases List.mem_cons.mp hr with rfl | hr
            · exact hfull
            · exact h4 r hr
        · rintro ⟨bs, hbs⟩
          rcases hre : Raid6Algorithm.readBuffers f sec s' ds with ⟨s'', r⟩
          rw [hre] at hbs h5
          cases r with
          | ok bs' =>
            obtain ⟨k1, k2⟩ := h5 ⟨bs', rfl⟩
            refine ⟨by simp [k1], fun r hr => ?_⟩
            rcases List.mem_cons.mp hr with rfl | hr
            · exact hfull
            · exact k2 r hr
          | err e => cases hbs
          | panic => cases hbs
        · intro hbs
          rcases hre : Raid6Algorithm.readBuffers f sec s' ds with ⟨s'', r⟩
          rw [hre] at hbs h6
          have : ∃ r, reads.getLast? = some r ∧ ¬ r.full := by
            apply h6
            intro bs hbs'
            simp only at hbs'
            subst hbs'
            exact hbs _ rfl
          obtain ⟨r, hr, hr'⟩ := this
          refine ⟨r, ?_, hr'⟩
          rw [List.getLast?_cons, hr]; rfl
      · refine ⟨[⟨d, sec, .ok (m, b)⟩], ?_⟩
        have : ¬ MemberRead.full ⟨d, sec, .ok (m, b)⟩ := by
          rintro ⟨b', hb'⟩
          simp only [Res.ok.injEq, Prod.mk.injEq] at hb'
          exact hm (by rw [hb'.1, hb'.2])
        simp [Raid6Algorithm.readBuffers, logged, hf, hm, this]

/-- C14.  `logged f` behaves as `f` and records the reads.  The reads made by one sector read are, in
order, of devices 0, 1, ..., k-1 at one and the same sector (the stripe's sector), with k ≤ n; every
one but the last gave a full sector; if data is returned, k = n and all gave a full sector. -/
theorem C14_raid6_read_trace {σ : Type} (alg : Raid6Algorithm) {sector c n : Nat}
    (f : Raid6Algorithm.ReadSectorFn σ) (st : σ) (log : List MemberRead)
    (hs : sector < U64) (hn' : n < U32) :
    (alg.readSector sector c n (logged f) (st, log)).2 = (alg.readSector sector c n f st).2 ∧
    (alg.readSector sector c n (logged f) (st, log)).1.1 = (alg.readSector sector c n f st).1 ∧
    ∃ reads, (alg.readSector sector c n (logged f) (st, log)).1.2 = log ++ reads ∧
      reads.length ≤ n ∧
      reads.map (fun r => (r.device, r.sector)) =
        (List.range reads.length).map
          (fun d => (d, sector / (c * (n - 2)) * c + sector % c)) ∧
      (∀ r ∈ reads.dropLast, r.full) ∧
      ((∃ b, (alg.readSector sector c n f st).2 = .ok b) →
        reads.length = n ∧ ∀ r ∈ reads, r.full) := by
  rw [← Nat.div_div_eq_div_mul]
  rcases hcs : alg.computeSector sector c n with _ | ⟨sec, p, q, d⟩
  · rw [Raid6Algorithm.readSector, Raid6Algorithm.readSector, hcs]
    refine ⟨rfl, rfl, [], by simp, by simp, by simp, by simp, ?_⟩
    rintro ⟨b, hb⟩
    cases hb
  obtain ⟨hc, hn, rfl, rfl, rfl, rfl⟩ := alg.computeSector_some hs hn' hcs
  obtain ⟨reads, h1, h2, h3, h4, h5, h6⟩ := logged_readBuffers f
    (sector / c / (n - 2) * c + sector % c) (List.range n) st log
  rw [Raid6Algorithm.readSector, Raid6Algorithm.readSector, hcs]
  simp only [h1]
  rw [List.length_range] at h3 h5
  rw [List.take_range, Nat.min_eq_left h3] at h2
  rcases hre : Raid6Algorithm.readBuffers f (sector / c / (n - 2) * c + sector % c) st
    (List.range n) with ⟨s', r⟩
  rw [hre] at h5
  cases r with
  | err e => exact ⟨rfl, rfl, reads, rfl, h3, h2, h4, fun ⟨b, hb⟩ => by cases hb⟩
  | panic => exact ⟨rfl, rfl, reads, rfl, h3, h2, h4, fun ⟨b, hb⟩ => by cases hb⟩
  | ok bufs =>
    have h5 := h5 ⟨_, rfl⟩
    simp only
    split
    · exact ⟨rfl, rfl, reads, rfl, h3, h2, h4, fun _ => h5⟩
    · split
      · split <;> exact ⟨rfl, rfl, reads, rfl, h3, h2, h4, fun _ => h5⟩
      · exact ⟨rfl, rfl, reads, rfl, h3, h2, h4, fun _ => h5⟩

/-- C15.  Unless the level is 6 and the layout number is in the RAID6 table, a read is answered
Unsupported and the member-read callback is never called (its state is unchanged). -/
theorem C15_unsupported_never_reads {σ : Type} {level layout : Nat} {sector c n : Nat}
    (f : Raid6Algorithm.ReadSectorFn σ) (st : σ)
    (h : level ≠ 6 ∨ raid6Row layout 3 0 = none) :
    (MdAlgorithm.fromLevelAndLayout level layout).readSector sector c n f st =
      (st, .err .unsupported) := by
  have h6 : ∀ a, MdAlgorithm.fromLevelAndLayout level layout ≠ .raid6 a := by
    intro a
    unfold MdAlgorithm.fromLevelAndLayout
    split
    · cases Raid5Algorithm.fromLayout layout <;> simp
    · rcases h with h | h
      · exact absurd rfl h
      · have : ¬ (Raid6Algorithm.fromLayout layout).isSome := by
          rw [C04_raid6_layout_numbers' layout, h]; simp
        cases hfl : Raid6Algorithm.fromLayout layout
        · simp
        · rw [hfl] at this; simp at this
    · simp
  unfold MdAlgorithm.readSector
  split
  · rename_i a heq; exact absurd heq (h6 a)
  · rfl

example : raid6Row 7 3 0 = none ∧ raid6Row 2 3 0 ≠ none := by decide

/-! Concrete stripe for C11, C12: 4 devices, layout 2 (left symmetric), chunk 1, stripe 0:
roles D0 D1 P Q is checked by `decide`; device bytes 1, 2, 1 xor 2, anything. -/

def exampleStore : Nat → Nat → Bytes := fun d _ =>
  List.replicate 512 (match d with | 1 => 1 | 2 => 2 | 3 => 3 | _ => 77)

def exampleRead : Raid6Algorithm.ReadSectorFn Unit := fun _ d s _ => ((), .ok (512, exampleStore d s))

theorem exampleStore_consistent (s : Nat) : PConsistent [.Q, .D 0, .D 1, .P] exampleStore s := by
  intro p hp i hi
  have hp3 : p = 3 := row_inj (row := [.Q, .D 0, .D 1, .P]) (by decide) hp rfl
  subst hp3
  have hdd : dataDevices [.Q, .D 0, .D 1, .P] = [1, 2] := by decide
  rw [hdd]
  simp only [exampleStore, List.map_cons, List.map_nil, List.getD_eq_getElem?_getD,
    List.getElem?_replicate, hi, if_true]
  decide

/-- The hypotheses of C11 (hence of C12 first half) hold here, and the data device is 1. -/
example : (Raid6Algorithm.leftSymmetric.readSector 0 1 4 exampleRead ()).2 =
    .ok (exampleStore 1 0) :=
  C11_raid6_read_consistent (L := 2) (row := [.Q, .D 0, .D 1, .P]) (d := 1) ()
    rfl (by decide) (by decide) (by decide) (by decide) (by decide) (by decide) (by decide)
    (fun _ _ _ _ _ => ⟨List.length_replicate, rfl⟩) (exampleStore_consistent _)

/-- The hypotheses of C12 first half hold, with members that fail for every sector but this one. -/
example := C12_raid6_read_checks_parity (L := 2) (alg := .leftSymmetric) (sector := 0) (c := 1) (n := 4)
  (row := [.Q, .D 0, .D 1, .P]) (store := exampleStore) (st := ())
  (f := fun _ d s _ => ((), if s = 0 then .ok (512, exampleStore d s) else .err (.os 5)))
  (b := exampleStore 1 0) rfl (by decide) (by decide) (by decide)
  (fun _ _ _ _ _ => ⟨List.length_replicate, .inl rfl⟩)
  (C11_raid6_read_consistent (L := 2) (row := [.Q, .D 0, .D 1, .P]) (d := 1) ()
    rfl (by decide) (by decide) (by decide) (by decide) (by decide) (by decide) (by decide)
    (fun _ _ _ _ _ => ⟨List.length_replicate, rfl⟩) (exampleStore_consistent _))

/-- The hypotheses of C12 second half hold when device 2 is changed to all 9. -/
example : (Raid6Algorithm.leftSymmetric.readSector 0 1 4
    (fun (_ : Unit) d s _ =>
      ((), .ok (512, if d = 2 then List.replicate 512 9 else exampleStore d s))) ()).2 =
    .err .invalidData :=
  C12_raid6_single_corruption_detected (L := 2) (row := [.Q, .D 0, .D 1, .P]) (k := 2) (i := 5)
    (good := exampleStore)
    (bad := fun d s => if d = 2 then List.replicate 512 9 else exampleStore d s) ()
    rfl (by decide) (by decide) (by decide) (by decide) (by decide) (by decide)
    (exampleStore_consistent _) (by decide) (by decide) (fun d hd => by simp [hd]) (by decide)
    (by decide)
    (fun _ d _ _ _ => ⟨by
      by_cases h : d = 2
      · simp only [h, if_true]; exact List.length_replicate
      · simp only [h, if_false]; exact List.length_replicate, rfl⟩)

/-- C14 on the same stripe: four reads, all full. -/
example : (Raid6Algorithm.leftSymmetric.readSector 0 1 4 (logged exampleRead) ((), [])).1.2.length = 4 := by
  obtain ⟨_, _, reads, h, _, _, _, hall⟩ := C14_raid6_read_trace .leftSymmetric (sector := 0) (c := 1)
    (n := 4) exampleRead () [] (by decide) (by decide)
  rw [h, List.nil_append]
  exact (hall ⟨exampleStore 1 0, C11_raid6_read_consistent (L := 2) (row := [.Q, .D 0, .D 1, .P]) (d := 1) ()
    rfl (by decide) (by decide) (by decide) (by decide) (by decide) (by decide) (by decide)
    (fun _ _ _ _ _ => ⟨List.length_replicate, rfl⟩) (exampleStore_consistent _)⟩).1

/-- C15 applies to level 5, and to level 6 with a layout number that is not in the table. -/
example := C15_unsupported_never_reads (level := 5) (layout := 2) (sector := 0) (c := 1) (n := 4)
  exampleRead () (by decide)
example := C15_unsupported_never_reads (level := 6) (layout := 7) (sector := 0) (c := 1) (n := 4)
  exampleRead () (by decide)

/-- C13 applies to a member that always fails. -/
example : ∃ e, (Raid6Algorithm.leftSymmetric.readSector 0 1 4
    (fun (_ : Unit) d s _ =>
      ((), if d = 3 then .err (.os 5) else .ok (512, exampleStore d s))) ()).2 = .err e :=
  (C13_raid6_read_fails_with_member _ (k := 3) () (by decide) (by decide) (by decide)
    (fun _ _ _ h => by simp at h)).2 (fun _ d _ _ => by by_cases h : d = 3 <;> simp [h])

end MdRecover
