import Verif.Lemmas.Reader
import Verif.Lemmas.Raid6Read
import Verif.Model.Array
import Verif.Props.Capacity
import Verif.Props.Raid6Read
import Verif.Spec.ArrayRead

namespace MdRecover
open MdSpec

variable {W D : Type}

/-- A member device is the device it wraps. -/
theorem MdDevice.devSpec {F : Prop} {dev : BlockDev W D} {G : W → Prop} {Is : D → Disk → Prop}
    (hd : DevSpec F dev G Is) : DevSpec F (MdDevice.dev dev) G (fun m k => Is m.device k) where
  wf h := hd.wf h
  blockSize hG h := hd.blockSize hG h
  blockCount hG h := hd.blockCount hG h
  readBlock hG h b buf hb hl := hd.readBlock hG h b buf hb hl
  tryClone {w m k} hG h := by
    obtain ⟨h1, h2⟩ := hd.tryClone hG h
    rcases hc : dev.tryClone m.device w with ⟨w', r⟩
    rw [hc] at h1 h2
    have he : (MdDevice.dev dev).tryClone m w =
        (dev.tryClone m.device >>= fun d => pure { m with device := d }) w := rfl
    rcases h2 with ⟨d', h2, hi⟩ | ⟨hF, e, h2⟩
    · simp only at h2
      rw [h2] at hc
      rw [he, SM.bind_ok (h := hc)]
      exact ⟨h1, .inl ⟨{ m with device := d' }, rfl, hi⟩⟩
    · simp only at h2
      rw [h2] at hc
      rw [he, SM.bind_err (h := hc)]
      exact ⟨h1, .inr ⟨hF, e, rfl⟩⟩

namespace MdArray

/-- What a member answers, as a function of the disks. -/
def memberAnswer (disks : Nat → Option Disk) (d sector : Nat) (buf : Bytes) : Res (Nat × Bytes) :=
  if buf.length < 512 then .err .invalidInput
  else match disks d with
    | none => .err .invalidInput
    | some k =>
      if U64 ≤ sector * 512 then .err .invalidInput
      else if k.content.length < sector * 512 + 512 then .err .unexpectedEof
      else .ok (512, overwrite buf (k.sector sector))

/-- The disks of the active devices. -/
def Disks (Is : D → Disk → Prop) (devices : HMap Nat (MdDevice D)) (disks : Nat → Option Disk) :
    Prop :=
  ∀ d, (devices.get d = none ∧ disks d = none) ∨
    ∃ x k, devices.get d = some x ∧ disks d = some k ∧ Is x.device k

theorem checkedMul64_eq (a b : Nat) :
    checkedMul64 a b = if a * b < U64 then some (a * b) else none := rfl

theorem readThrough_spec {F : Prop} {dev : BlockDev W (MdDevice D)} {G : W → Prop}
    {Is : MdDevice D → Disk → Prop} (hd : DevSpec F dev G Is) {k : Disk} {m : MdDevice D}
    (hm : Is m k) {w : W} (hG : G w) (sector : Nat) {buf : Bytes} (hb : 512 ≤ buf.length) :
    ∃ w' r', G w' ∧
      ((F ∧ ∃ e, readThrough dev sector buf (w, Reader.new m) = ((w', r'), .err e)) ∨
       readThrough dev sector buf (w, Reader.new m) = ((w', r'),
        if U64 ≤ sector * 512 then .err .invalidInput
        else if k.content.length < sector * 512 + 512 then .err .unexpectedEof
        else .ok (512, overwrite buf (k.sector sector)))) := by
  unfold readThrough
  rw [checkedMul64_eq]
  by_cases hs : U64 ≤ sector * 512
  · rw [if_neg (by omega), if_pos hs]
    exact ⟨w, Reader.new m, hG, .inr rfl⟩
  · rw [if_pos (by omega), if_neg hs]
    rw [SM.bind_ok (a := sector * 512) (s' := (w, Reader.new m)) (h := rfl)]
    have hr := Reader.at_new (hd.wf hm) hm
    obtain ⟨w1, r1, hG1, h⟩ := Reader.seek_spec hd hG hr (.start (sector * 512))
      (fun q hq => by cases hq; omega)
    rcases h with ⟨hF, e, h, _⟩ | ⟨hbad, _⟩ | ⟨q, hq, hql, h, hr1⟩
    · exact ⟨w1, r1, hG1, .inl ⟨hF, e, SM.bind_err (h := h) _⟩⟩
    · exact absurd ⟨by simp [seekGoal]; omega, by simp only [seekGoal]; omega⟩ hbad
    have hpq : sector * 512 = q := by simp only [seekGoal] at hq; omega
    subst hpq
    rw [SM.bind_ok (h := h)]
    have hl : (buf.take 512).length = 512 := by rw [List.length_take]; omega
    obtain ⟨w2, r2, pos2, hG2, _, h2⟩ := Reader.readExact_spec hd (buf.take 512) hG1 hr1
    rw [hl] at h2
    rcases h2 with ⟨hF, e, h2⟩ | ⟨hlt, _, h2⟩ | ⟨hok, _, h2⟩
    · exact ⟨w2, r2, hG2, .inl ⟨hF, e, SM.bind_err (h := h2) _⟩⟩
    · rw [if_pos hlt]
      exact ⟨w2, r2, hG2, .inr (SM.bind_err (h := h2) _)⟩
    · have hok' : sector * 512 + 512 ≤ k.content.length := by
        rcases hok with h | h
        · rw [h] at hl; simp at hl
        · exact h
      rw [if_neg (by omega)]
      refine ⟨w2, r2, hG2, .inr ?_⟩
      rw [SM.bind_ok (h := h2)]
      rfl

theorem memberRead_spec {F : Prop} {dev : BlockDev W D} {G : W → Prop} {Is : D → Disk → Prop}
    (hd : DevSpec F dev G Is) {devices : HMap Nat (MdDevice D)} {disks : Nat → Option Disk}
    (hdisks : Disks Is devices disks) (d sector : Nat) (buf : Bytes) {w : W} (hG : G w) :
    G (memberRead dev devices d sector buf w).1 ∧
      ((F ∧ ∃ e, (memberRead dev devices d sector buf w).2 = .err e) ∨
        (memberRead dev devices d sector buf w).2 = memberAnswer disks d sector buf) := by
  unfold memberRead memberAnswer
  by_cases hb : buf.length < 512
  · rw [if_pos hb, if_pos hb]; exact ⟨hG, .inr rfl⟩
  rw [if_neg hb, if_neg hb]
  rcases hdisks d with ⟨h1, h2⟩ | ⟨x, k, h1, h2, hi⟩
  · rw [h1, h2]; exact ⟨hG, .inr rfl⟩
  rw [h1, h2]
  simp only
  rw [SM.bind_ok (a := x) (s' := w) (h := rfl)]
  have hd' := MdDevice.devSpec hd
  obtain ⟨hG1, hc⟩ := hd'.tryClone (w := w) hG hi
  rcases hce : (MdDevice.dev dev).tryClone x w with ⟨w1, r1⟩
  rw [hce] at hG1 hc
  simp only at hG1 hc
  rcases hc with ⟨m, hc, hm⟩ | ⟨hF, e, hc⟩
  · subst hc
    rw [SM.bind_ok (h := hce)]
    obtain ⟨w2, r2, hG2, h⟩ := readThrough_spec hd' hm hG1 sector (Nat.le_of_not_lt hb)
    rcases h with ⟨hF, e, h⟩ | h
    · simp only [SM.withLocal, h]
      exact ⟨hG2, .inl ⟨hF, e, rfl⟩⟩
    · simp only [SM.withLocal, h]
      exact ⟨hG2, .inr trivial⟩
  · subst hc
    rw [SM.bind_err (h := hce)]
    exact ⟨hG1, .inl ⟨hF, e, rfl⟩⟩

/-- A callback without effects. -/
def pureFn (g : Nat → Nat → Bytes → Res (Nat × Bytes)) : Raid6Algorithm.ReadSectorFn Unit :=
  fun _ d sec buf => ((), g d sec buf)

/-- `f` answers as `g`, or fails if `F`, as long as `G` holds, and keeps `G`. -/
def Simulates (F : Prop) (G : W → Prop) (f : Raid6Algorithm.ReadSectorFn W)
    (g : Nat → Nat → Bytes → Res (Nat × Bytes)) : Prop :=
  ∀ w d sec buf, G w → G (f w d sec buf).1 ∧
    ((F ∧ ∃ e, (f w d sec buf).2 = .err e) ∨ (f w d sec buf).2 = g d sec buf)

theorem readBuffers_sim {F : Prop} {G : W → Prop} {f : Raid6Algorithm.ReadSectorFn W}
    {g : Nat → Nat → Bytes → Res (Nat × Bytes)} (h : Simulates F G f g) (sec : Nat) :
    ∀ (ds : List Nat) {w : W}, G w → G (Raid6Algorithm.readBuffers f sec w ds).1 ∧
      ((F ∧ ∃ e, (Raid6Algorithm.readBuffers f sec w ds).2 = .err e) ∨
        (Raid6Algorithm.readBuffers f sec w ds).2 =
          (Raid6Algorithm.readBuffers (pureFn g) sec () ds).2)
  | [], w, hG => ⟨hG, .inr rfl⟩
  | d :: ds, w, hG => by
    obtain ⟨h1, h2⟩ := h w d sec (zeros 512) hG
    rw [Raid6Algorithm.readBuffers, Raid6Algorithm.readBuffers]
    have hp : pureFn g () d sec (zeros 512) = ((), g d sec (zeros 512)) := rfl
    rw [hp]
    rcases hf : f w d sec (zeros 512) with ⟨w', r⟩
    rw [hf] at h1 h2
    simp only at h1 h2
    rcases h2 with ⟨hF, e, rfl⟩ | h2
    · exact ⟨h1, .inl ⟨hF, e, rfl⟩⟩
    rw [← h2]
    cases r with
    | err e => exact ⟨h1, .inr rfl⟩
    | panic => exact ⟨h1, .inr rfl⟩
    | ok v =>
      obtain ⟨m, b⟩ := v
      simp only
      by_cases hm : m ≠ b.length
      · rw [if_pos hm, if_pos hm]; exact ⟨h1, .inr rfl⟩
      rw [if_neg hm, if_neg hm]
      obtain ⟨k1, k2⟩ := readBuffers_sim h sec ds h1
      rcases hre : Raid6Algorithm.readBuffers f sec w' ds with ⟨w'', r⟩
      rcases hrp : Raid6Algorithm.readBuffers (pureFn g) sec () ds with ⟨u, r'⟩
      rw [hre] at k1 k2
      rw [hrp] at k2
      simp only at k1 k2
      rcases k2 with ⟨hF, e, rfl⟩ | rfl
      · exact ⟨k1, .inl ⟨hF, e, rfl⟩⟩
      · cases r <;> exact ⟨k1, .inr rfl⟩

theorem readSector_sim {F : Prop} {G : W → Prop} {f : Raid6Algorithm.ReadSectorFn W}
    {g : Nat → Nat → Bytes → Res (Nat × Bytes)} (h : Simulates F G f g) (alg : MdAlgorithm)
    (sector c n : Nat) {w : W} (hG : G w) : G (alg.readSector sector c n f w).1 ∧
      ((F ∧ ∃ e, (alg.readSector sector c n f w).2 = .err e) ∨
        (alg.readSector sector c n f w).2 = (alg.readSector sector c n (pureFn g) ()).2) := by
  cases alg with
  | unsupported l y => exact ⟨hG, .inr rfl⟩
  | raid5 a => exact ⟨hG, .inr rfl⟩
  | raid6 a =>
    simp only [MdAlgorithm.readSector]
    rw [Raid6Algorithm.readSector, Raid6Algorithm.readSector]
    rcases a.computeSector sector c n with _ | ⟨sec, p, q, d⟩
    · exact ⟨hG, .inr rfl⟩
    simp only
    obtain ⟨k1, k2⟩ := readBuffers_sim h sec (List.range n) hG
    rcases hre : Raid6Algorithm.readBuffers f sec w (List.range n) with ⟨w'', r⟩
    rcases hrp : Raid6Algorithm.readBuffers (pureFn g) sec () (List.range n) with ⟨u, r'⟩
    rw [hre] at k1 k2
    rw [hrp] at k2
    simp only at k1 k2
    rcases k2 with ⟨hF, e, rfl⟩ | rfl
    · exact ⟨k1, .inl ⟨hF, e, rfl⟩⟩
    cases r with
    | err e => exact ⟨k1, .inr rfl⟩
    | panic => exact ⟨k1, .inr rfl⟩
    | ok bufs =>
      simp only
      cases bufs[p]? with
      | none => exact ⟨k1, .inr rfl⟩
      | some pbuf =>
        simp only
        split
        · cases bufs[d]? <;> exact ⟨k1, .inr rfl⟩
        · exact ⟨k1, .inr rfl⟩

/-- The answer of a read as a function of the format and the disks. -/
def pureRead (format : Option MdFormat) (disks : Nat → Option Disk) (b : Nat) (buf : Bytes) :
    Res (Nat × Bytes) :=
  if buf.length < 512 then .err .invalidInput
  else match format with
    | none => .err .invalidData
    | some f =>
      match (f.algorithm.readSector b f.chunkSize f.deviceCount (pureFn (memberAnswer disks)) ()).2 with
      | .ok block => if buf.length ≠ block.length then .panic else .ok (512, block)
      | .err e => .err e
      | .panic => .panic

theorem readBlock_spec {F : Prop} {dev : BlockDev W D} {G : W → Prop} {Is : D → Disk → Prop}
    (hd : DevSpec F dev G Is) {a : ArrayDef D} {disks : Nat → Option Disk}
    (hdisks : Disks Is a.devices disks) (b : Nat) (buf : Bytes) {w : W} (hG : G w) :
    G (readBlock dev b buf (w, a)).1.1 ∧ (readBlock dev b buf (w, a)).1.2 = a ∧
      ((F ∧ ∃ e, (readBlock dev b buf (w, a)).2 = .err e) ∨
        (readBlock dev b buf (w, a)).2 = pureRead (formatInUse a) disks b buf) := by
  unfold readBlock pureRead
  by_cases hb : buf.length < 512
  · rw [if_pos hb, if_pos hb]; exact ⟨hG, rfl, .inr rfl⟩
  rw [if_neg hb, if_neg hb]
  simp only
  cases formatInUse a with
  | none => exact ⟨hG, rfl, .inr rfl⟩
  | some f =>
    simp only
    have hsim : Simulates F G (fun w d sec b => memberRead dev a.devices d sec b w)
        (memberAnswer disks) := fun w d sec buf hG => memberRead_spec hd hdisks d sec buf hG
    obtain ⟨k1, k2⟩ := readSector_sim hsim f.algorithm b f.chunkSize f.deviceCount hG
    rcases hre : f.algorithm.readSector b f.chunkSize f.deviceCount
      (fun w d sec b => memberRead dev a.devices d sec b w) w with ⟨w', r⟩
    rw [hre] at k1 k2
    simp only at k1 k2
    rcases k2 with ⟨hF, e, rfl⟩ | k2
    · exact ⟨k1, rfl, .inl ⟨hF, e, rfl⟩⟩
    rw [← k2]
    cases r with
    | err e => exact ⟨k1, rfl, .inr rfl⟩
    | panic => exact ⟨k1, rfl, .inr rfl⟩
    | ok block =>
      simp only
      split
      · exact ⟨k1, rfl, .inr rfl⟩
      · exact ⟨k1, rfl, .inr rfl⟩

theorem sector_length {k : Disk} {s : Nat} (h : s * 512 + 512 ≤ k.content.length) :
    (k.sector s).length = 512 := by
  unfold Disk.sector slice
  rw [List.length_take, List.length_drop]; omega

theorem zeros_length (n : Nat) : (zeros n).length = n := List.length_replicate

theorem overwrite_full {buf src : Bytes} (h : buf.length = src.length) : overwrite buf src = src := by
  unfold overwrite
  rw [← h, List.drop_length, List.append_nil]

theorem memberAnswer_ok {disks : Nat → Option Disk} {d sec m : Nat} {b : Bytes}
    (h : memberAnswer disks d sec (zeros 512) = .ok (m, b)) : m = 512 ∧ b.length = 512 := by
  unfold memberAnswer at h
  rw [if_neg (by rw [zeros_length]; omega)] at h
  cases hd : disks d with
  | none => rw [hd] at h; cases h
  | some k =>
    rw [hd] at h
    simp only at h
    split at h
    · cases h
    · split at h
      · cases h
      · have hl := sector_length (k := k) (s := sec) (by omega)
        rw [overwrite_full (by rw [hl, zeros_length])] at h
        cases h
        exact ⟨rfl, hl⟩

theorem memberAnswer_no_panic (disks : Nat → Option Disk) (d sec : Nat) (buf : Bytes) :
    memberAnswer disks d sec buf ≠ .panic := by
  unfold memberAnswer
  split
  · simp
  · split
    · simp
    · split
      · simp
      · split <;> simp

theorem pureFn_none {disks : Nat → Option Disk} {d : Nat} (h : disks d = none) {u : Unit} {sec : Nat}
    {buf : Bytes} {v : Nat × Bytes} : (pureFn (memberAnswer disks) u d sec buf).2 ≠ .ok v := by
  simp only [pureFn, memberAnswer, h]
  split <;> simp

theorem readBuffers_lengths (disks : Nat → Option Disk) (sec : Nat) (ds : List Nat) :
    ∀ {u : Unit} {bufs : List Bytes},
      Raid6Algorithm.readBuffers (pureFn (memberAnswer disks)) sec () ds = (u, .ok bufs) →
      ∀ b ∈ bufs, b.length = 512 := by
  induction ds with
  | nil =>
    intro u bufs h
    rw [Raid6Algorithm.readBuffers] at h
    cases h
    simp
  | cons d ds ih =>
    intro u bufs h
    rw [Raid6Algorithm.readBuffers] at h
    have hl : (zeros 512).length = 512 := zeros_length 512
    have hok := fun m b => memberAnswer_ok (disks := disks) (d := d) (sec := sec) (m := m) (b := b)
    generalize zeros 512 = z at h hl hok
    have hp : pureFn (memberAnswer disks) () d sec z = ((), memberAnswer disks d sec z) := rfl
    rw [hp] at h
    cases hm : memberAnswer disks d sec z with
    | err e => rw [hm] at h; cases h
    | panic => rw [hm] at h; cases h
    | ok v =>
      obtain ⟨m, b⟩ := v
      rw [hm] at h
      simp only at h
      split at h
      · cases h
      · rcases hre : Raid6Algorithm.readBuffers (pureFn (memberAnswer disks)) sec () ds with ⟨u', r⟩
        rw [hre] at h
        cases r with
        | err e => cases h
        | panic => cases h
        | ok bs =>
          simp only [Prod.mk.injEq, Res.ok.injEq] at h
          rw [← h.2]
          intro x hx
          rcases List.mem_cons.mp hx with rfl | hx
          · exact (hok _ _ hm).2
          · exact ih hre x hx

/-- A sector read over disks never panics, and gives 512 bytes or an error. -/
theorem pure_readSector {disks : Nat → Option Disk} (alg : MdAlgorithm) {sector c n : Nat}
    (hs : sector < U64) (hn : n < U32) :
    (∃ e, (alg.readSector sector c n (pureFn (memberAnswer disks)) ()).2 = .err e) ∨
    ∃ b, (alg.readSector sector c n (pureFn (memberAnswer disks)) ()).2 = .ok b ∧ b.length = 512 := by
  cases alg with
  | unsupported l y => exact .inl ⟨_, rfl⟩
  | raid5 a => exact .inl ⟨_, rfl⟩
  | raid6 a =>
    simp only [MdAlgorithm.readSector]
    rw [Raid6Algorithm.readSector]
    rcases hcs : a.computeSector sector c n with _ | ⟨sec, p, q, d⟩
    · exact .inl ⟨_, rfl⟩
    obtain ⟨hc, h3, rfl, rfl, rfl, hd⟩ := a.computeSector_some hs hn hcs
    have hdn : d < n := by rw [hd]; exact a.dataOf_lt h3 (Nat.mod_lt _ (by omega))
    simp only
    rcases hre : Raid6Algorithm.readBuffers (pureFn (memberAnswer disks))
      (sector / c / (n - 2) * c + sector % c) () (List.range n) with ⟨u, r⟩
    cases r with
    | err e => exact .inl ⟨_, rfl⟩
    | panic =>
      exfalso
      refine Raid6Algorithm.readBuffers_no_panic (f := pureFn (memberAnswer disks)) ?_
        (sector / c / (n - 2) * c + sector % c) (List.range n) () (by rw [hre])
      intro s d sec buf
      exact memberAnswer_no_panic disks d sec buf
    | ok bufs =>
      simp only
      have hlen := Raid6Algorithm.readBuffers_ok_length _ _ hre
      rw [List.length_range] at hlen
      have hb := readBuffers_lengths disks _ _ hre
      cases bufs[a.pOf n (sector / c / (n - 2))]? with
      | none => exact .inl ⟨_, rfl⟩
      | some pbuf =>
        simp only
        split
        · have hdl : d < bufs.length := by omega
          rw [List.getElem?_eq_getElem hdl]
          exact .inr ⟨_, rfl, hb _ (List.getElem_mem hdl)⟩
        · exact .inl ⟨_, rfl⟩

theorem pureRead_cases {format : Option MdFormat} {disks : Nat → Option Disk} {b : Nat}
    (hb : b < U64) (hf : ∀ f, format = some f → f.deviceCount < U32) {buf : Bytes}
    (hbuf : buf.length ≤ 512) :
    (∃ e, pureRead format disks b buf = .err e) ∨
      ∃ block : Bytes, block.length = 512 ∧ pureRead format disks b buf = .ok (512, block) := by
  unfold pureRead
  split
  · exact .inl ⟨_, rfl⟩
  · cases format with
    | none => exact .inl ⟨_, rfl⟩
    | some f =>
      simp only
      rcases pure_readSector (disks := disks) f.algorithm (sector := b) (c := f.chunkSize) hb
        (hf f rfl) with ⟨e, h⟩ | ⟨blk, h, hl⟩
      · rw [h]; exact .inl ⟨e, rfl⟩
      · rw [h]
        simp only
        rw [if_neg (by omega)]
        exact .inr ⟨blk, hl, rfl⟩

theorem fit_total {a b u : Nat} (h : a ≤ b) (h' : b * 512 < u) : a * 512 < u :=
  Nat.lt_of_le_of_lt (Nat.mul_le_mul_right 512 h) h'

theorem fit_sector {sec size l : Nat} (h : sec < size) (h' : size * 512 ≤ l) :
    sec * 512 + 512 ≤ l := by
  rw [← Nat.succ_mul]; exact Nat.le_trans (Nat.mul_le_mul_right 512 h) h'

/-- The members hold a RAID6 array: the sector read gives the logical content. -/
theorem pure_readSector_set {L n c size : Nat} {alg : Raid6Algorithm} {members : Nat → Disk}
    {content : Bytes} (hL : Raid6Algorithm.fromLayout L = some alg)
    (hset : Raid6Set L n c size members content) {disks : Nat → Option Disk}
    (hdisks : ∀ d, d < n → disks d = some (members d)) {b : Nat} (hb : b < size * (n - 2)) :
    (alg.readSector b c n (pureFn (memberAnswer disks)) ()).2 = .ok (slice content (b * 512) 512) := by
  have hn := hset.devices
  have hc := hset.chunk
  obtain ⟨k, hk⟩ := hset.whole_chunks
  rw [Nat.mul_comm] at hk
  have hbl := hset.bytes_lt
  have hsle : size ≤ size * (n - 2) := Nat.le_mul_of_pos_right _ (by omega)
  rw [hk] at hb
  obtain ⟨h3, h4⟩ := capacity_forward hc hb
  rw [← hk] at hb h4
  have hkle : k ≤ size := by rw [hk]; exact Nat.le_mul_of_pos_right _ hc
  have hbU : b < U64 := by omega
  obtain ⟨row, hrow, hP, hQ, hD⟩ := raid6Row_get (s := b / c / (n - 2)) hn hL
  have hi : b / c % (n - 2) < n - 2 := Nat.mod_lt _ (by omega)
  have hd := hD _ hi
  have hsec : b / (c * (n - 2)) * c + b % c = b / c / (n - 2) * c + b % c := by
    rw [Nat.div_div_eq_div_mul]
  have hdivc : (b / c / (n - 2) * c + b % c) / c = b / c / (n - 2) := by
    rw [Nat.mul_comm, Nat.mul_add_div hc, Nat.div_eq_of_lt (Nat.mod_lt _ hc), Nat.add_zero]
  have hrel : ReliableRead (pureFn (memberAnswer disks)) (fun d s => (members d).sector s) n
      (b / (c * (n - 2)) * c + b % c) := by
    intro _ d buf hdn hbuf
    have hsz := hset.member_size d hdn
    rw [hsec]
    clear hsec hdivc
    have hsize : size * 512 < U64 := fit_total hsle hbl
    generalize b / c / (n - 2) * c + b % c = sec at h4 ⊢
    clear hb hbl hsle hbU hi hrow hP hQ hD hd h3 hk hkle
    have hfit : sec * 512 + 512 ≤ (members d).content.length := fit_sector h4 hsz
    have hl := sector_length hfit
    refine ⟨hl, ?_⟩
    show memberAnswer disks d _ buf = _
    unfold memberAnswer
    rw [if_neg (by omega), hdisks d hdn]
    simp only
    rw [if_neg (by omega), if_neg (by omega), overwrite_full (by rw [hl, hbuf])]
  have hcons := hset.parity _ h4 row (by rw [hdivc]; exact hrow)
  rw [← hsec] at hcons
  have := C11_raid6_read_consistent () hL hbU hc hn hset.devices_lt (fun _ => by omega) hrow hd hrel hcons
  rw [this, hsec, hset.data b hb row _ hrow hd]

end MdArray
end MdRecover
