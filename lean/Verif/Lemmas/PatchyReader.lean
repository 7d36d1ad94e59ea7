import Verif.Lemmas.Patchy
import Verif.Lemmas.ArrayRead

/-! Block devices parts of which cannot be read, the reader on them, and arrays of them. -/

namespace MdRecover
open MdSpec

variable {W D : Type} {dev : BlockDev W D} {G : W → Prop} {Is : D → Disk → (Nat → Prop) → Prop}

theorem _root_.MdSpec.PatchyDev.toDev (h : PatchyDev dev G Is) (bad : Nat → Prop) :
    DevSpec True dev G (fun d k => Is d k bad) where
  wf := h.wf
  blockSize hG hI := ⟨(h.blockSize hG hI).1, .inl (h.blockSize hG hI).2⟩
  blockCount hG hI := ⟨(h.blockCount hG hI).1, .inl (h.blockCount hG hI).2⟩
  readBlock hG hI b buf hb hl := by
    obtain ⟨h1, h2, h3⟩ := h.readBlock hG hI b buf hb hl
    exact ⟨h1, h2, h3.imp_right fun h => ⟨trivial, h.2⟩⟩
  tryClone hG hI := ⟨(h.tryClone hG hI).1, .inl (h.tryClone hG hI).2⟩

/-- A member device is the device it wraps. -/
theorem MdDevice.patchyDev (h : PatchyDev dev G Is) :
    PatchyDev (MdDevice.dev dev) G (fun m k bad => Is m.device k bad) where
  wf h' := h.wf h'
  blockSize hG h' := h.blockSize hG h'
  blockCount hG h' := h.blockCount hG h'
  readBlock hG h' b buf hb hl := h.readBlock hG h' b buf hb hl
  tryClone {w m k bad} hG h' := by
    obtain ⟨h1, d', h2, h3⟩ := h.tryClone hG h'
    rcases hc : dev.tryClone m.device w with ⟨w', r⟩
    rw [hc] at h1 h2
    simp only at h2
    subst h2
    have he : (MdDevice.dev dev).tryClone m w =
        (dev.tryClone m.device >>= fun d => pure { m with device := d }) w := rfl
    rw [he, SM.bind_ok (h := hc)]
    exact ⟨h1, { m with device := d' }, rfl, h3⟩

namespace Reader

/-- Reading is possible at the end, and where the block can be read. -/
theorem read_ok (h : PatchyDev dev G Is) {bad : Nat → Prop} {k : Disk} {w : W} {r : Reader D} {pos : Nat}
    (hG : G w) (hr : At (fun d k => Is d k bad) k r pos) (buf : Bytes)
    (hok : k.content.length ≤ pos ∨ ¬ bad (pos / k.bs)) : ∃ a, (read dev buf (w, r)).2 = .ok a := by
  have hw := h.wf hr.is
  obtain ⟨hG1, hcnt⟩ := h.blockCount hG hr.is
  rcases hbc : dev.blockCount r.device w with ⟨w1, x1⟩
  rw [hbc] at hG1 hcnt
  simp only at hG1 hcnt
  subst hcnt
  have hon1 : onWorld dev.blockCount (w, r) = ((w1, r), .ok k.n) := by simp only [onWorld, hbc]
  unfold read
  rw [SM.bind_ok (h := SM.get_apply _)]
  simp only
  rw [SM.bind_ok (h := hon1)]
  by_cases hend : k.n ≤ r.blockPos
  · rw [if_pos hend]
    exact ⟨_, rfl⟩
  rw [if_neg hend]
  have hb : pos / k.bs = r.blockPos := by
    rw [hr.pos_eq, Nat.mul_comm, Nat.mul_add_div hw.bs_pos, Nat.div_eq_of_lt hr.byte_lt, Nat.add_zero]
  have hnb : ¬ bad r.blockPos := by
    rcases hok with hok | hok
    · rw [hw.len, hr.pos_eq] at hok
      have := Nat.mul_le_mul_right k.bs (show r.blockPos + 1 ≤ k.n by omega)
      rw [Nat.add_mul, Nat.one_mul] at this
      have := hr.byte_lt
      omega
    · rwa [hb] at hok
  obtain ⟨hG2, hbs⟩ := h.blockSize hG1 hr.is
  rcases hbc2 : dev.blockSize r.device w1 with ⟨w2, x2⟩
  rw [hbc2] at hG2 hbs
  simp only at hG2 hbs
  subst hbs
  have hon2 : onWorld dev.blockSize (w1, r) = ((w2, r), .ok k.bs) := by simp only [onWorld, hbc2]
  rw [SM.bind_ok (h := hon2)]
  obtain ⟨hG3, hIs3, hrb⟩ := h.readBlock hG2 hr.is r.blockPos (zeros k.bs) (by omega)
    List.length_replicate
  rcases hbc3 : dev.readBlock r.blockPos (zeros k.bs) (w2, r.device) with ⟨⟨w3, d3⟩, x3⟩
  rw [hbc3] at hG3 hIs3 hrb
  simp only at hG3 hIs3 hrb
  rcases hrb with rfl | ⟨hF, -⟩
  rotate_left
  · exact absurd hF hnb
  have hon3 : onDevice (dev.readBlock r.blockPos (zeros k.bs)) (w2, r) =
      ((w3, { r with device := d3 }), .ok (k.bs, (k.content.drop (r.blockPos * k.bs)).take k.bs)) := by
    simp only [onDevice, SM.zoom, hbc3]
  rw [SM.bind_ok (h := hon3)]
  simp only [copyOut]
  rw [SM.bind_ok (h := SM.get_apply _)]
  simp only
  have hlt := hr.byte_lt
  rw [SM.bind_ok (a := k.bs - r.bytePos) (s' := (w3, { r with device := d3 }))
    (h := by simp [subP, Nat.le_of_lt hlt])]
  rw [SM.bind_ok (h := SM.modify_apply _ _)]
  rw [SM.pure_apply]
  exact ⟨_, rfl⟩

/-- Every position is accepted. -/
theorem seek_ok (h : PatchyDev dev G Is) {bad : Nat → Prop} {k : Disk} {w : W} {r : Reader D} {pos : Nat}
    (hG : G w) (hr : At (fun d k => Is d k bad) k r pos) (p : Nat) :
    ∃ q, (seek dev (.start p) (w, r)).2 = .ok q := by
  have hw := h.wf hr.is
  unfold seek
  rw [SM.bind_ok (a := p) (s' := (w, r)) (h := rfl)]
  obtain ⟨hG1, hbs⟩ := h.blockSize hG hr.is
  rcases hbc2 : dev.blockSize r.device w with ⟨w2, x2⟩
  rw [hbc2] at hbs
  simp only at hbs
  subst hbs
  have hon2 : onWorld dev.blockSize (w, r) = ((w2, r), .ok k.bs) := by simp only [onWorld, hbc2]
  rw [SM.bind_ok (h := hon2)]
  have hb := hw.bs_pos
  rw [SM.bind_ok (a := p / k.bs) (s' := (w2, r))
    (h := by rw [divP, if_neg (by omega)]; rfl)]
  rw [SM.bind_ok (h := SM.modify_apply _ _)]
  exact ⟨_, rfl⟩

/-- The reader on a device some blocks of which cannot be read: a volume some bytes of which cannot be read. -/
theorem patchyVolume (h : PatchyDev dev G Is) (k : Disk) (bad : Nat → Prop) :
    PatchyVolume (fun x => bad (x / k.bs)) noLimit (Reader.streamDev dev) G
      (fun r c => c = k.content ∧ ∃ pos, Reader.At (fun d k => Is d k bad) k r pos)
      (fun _ r p => Reader.At (fun d k => Is d k bad) k r p) :=
  { Reader.seekableVolume (h.toDev bad) k with
    seekOk := by
      rintro w r c hG ⟨rfl, pos, hr⟩ p - -
      exact seek_ok h hG hr p
    seekNo := fun _ _ p hp h => absurd h (by simp only [noLimit]; omega)
    readOk := by
      rintro w r c p hG ⟨rfl, -⟩ hr buf hb hi
      refine read_ok h hG hr buf ?_
      by_cases hp : k.content.length ≤ p
      · exact .inl hp
      · have hne := hb.resolve_right hp
        exact .inr (hi p (Nat.le_refl _) (by have := List.length_pos_iff.mpr hne; omega) (by omega))
    cloneOk := by
      rintro w r c hG ⟨rfl, pos, hr⟩
      obtain ⟨-, d', h2, -⟩ := h.tryClone hG hr.is
      rcases hc : dev.tryClone r.device w with ⟨w', y⟩
      rw [hc] at h2
      simp only at h2
      subst h2
      refine ⟨{ r with device := d' }, ?_⟩
      show (Reader.tryClone dev r w).2 = _
      unfold Reader.tryClone
      rw [SM.bind_ok (h := hc)]
      rfl
    position := fun h1 h2 => h1.pos_eq.trans h2.pos_eq.symm }

end Reader

namespace MdArray

theorem readThrough_patchy {dev : BlockDev W (MdDevice D)} {Is : MdDevice D → Disk → (Nat → Prop) → Prop}
    (h : PatchyDev dev G Is) {k : Disk} {bad : Nat → Prop} {m : MdDevice D} (hm : Is m k bad) {w : W}
    (hG : G w) (sector : Nat) {buf : Bytes} (hb : 512 ≤ buf.length) (hs : ¬ SectorUnreadable k bad sector) :
    (readThrough dev sector buf (w, Reader.new m)).2 =
      if U64 ≤ sector * 512 then .err .invalidInput
      else if k.content.length < sector * 512 + 512 then .err .unexpectedEof
      else .ok (512, overwrite buf (k.sector sector)) := by
  have hw := h.wf hm
  have hlen : k.content.length < U64 := by rw [hw.len]; exact hw.size_lt
  have hag := (Reader.patchyVolume h k bad).agree (c := k.content) hlen (by simp only [noLimit]; omega)
  unfold readThrough
  rw [checkedMul64_eq]
  by_cases hsU : U64 ≤ sector * 512
  · rw [if_neg (by omega), if_pos hsU]
    rfl
  rw [if_pos (by omega), if_neg hsU]
  rw [SM.bind_ok (a := sector * 512) (s' := (w, Reader.new m)) (h := rfl)]
  have hr := Reader.at_new (Is := fun d k => Is d k bad) hw hm
  obtain ⟨q0, hq0⟩ := Reader.seek_ok h hG hr (sector * 512)
  rcases hse : Reader.seek dev (.start (sector * 512)) (w, Reader.new m) with ⟨⟨w1, r1⟩, x⟩
  rw [hse] at hq0
  simp only at hq0
  subst hq0
  rw [SM.bind_ok (h := hse)]
  have hl : (buf.take 512).length = 512 := by rw [List.length_take]; omega
  have hI : (fun r c => c = k.content ∧ k.content = k.content ∧
      ∃ pos, Reader.At (fun d k => Is d k bad) k r pos) (Reader.new m) k.content := ⟨rfl, rfl, 0, hr⟩
  have hse' : (patched (Reader.streamDev dev) (fun _ r p => Reader.At (fun d k => Is d k bad) k r p)
      k.content).seek (.start (sector * 512)) (w, Reader.new m) = ((w1, r1), .ok q0) := hse
  have he : readExact (Reader.read dev) (buf.take 512) (w1, r1) = _ :=
    hag.readAt (buf.take 512) hG hI (by omega) hse' (by
      rw [hl]
      intro x h1 h2 _ h3
      exact hs ⟨x, h1, h2, h3⟩)
  obtain ⟨hG1, hI1, h1⟩ := hag.perfect.seek hG hI _ (by omega) hse'
  rcases h1 with ⟨q, h1, hA, hq1, hq2⟩ | ⟨-, e, h1⟩
  rotate_left
  · cases h1
  obtain ⟨w2, r2, -, -, h2⟩ := volume_readExact hag.perfect hG1 hI1 hA (buf.take 512)
  rw [← he, hl] at h2
  rcases h2 with ⟨hF, -⟩ | ⟨hlt, -, h2⟩ | ⟨hok, -, h2⟩
  · exact hF.elim
  · have : k.content.length < sector * 512 + 512 := by
      by_contra hn
      have := hq1 (by omega)
      omega
    rw [if_pos this, SM.bind_err (h := h2)]
  · have hok : q + 512 ≤ k.content.length := by
      rcases hok with h | h
      · rw [h] at hl; simp at hl
      · exact h
    have hle : sector * 512 ≤ k.content.length := by
      by_contra hn
      have := hq2 (by omega)
      omega
    have := hq1 hle
    subst this
    rw [if_neg (by omega), SM.bind_ok (h := h2)]
    rfl

theorem memberRead_patchy (h : PatchyDev dev G Is) {devices : HMap Nat (MdDevice D)} {x : MdDevice D} {d : Nat}
    {k : Disk} {bad : Nat → Prop} (hx : devices.get d = some x) (hI : Is x.device k bad)
    {disks : Nat → Option Disk} (hk : disks d = some k) (sector : Nat) (buf : Bytes) {w : W} (hG : G w)
    (hs : ¬ SectorUnreadable k bad sector) :
    (memberRead dev devices d sector buf w).2 = memberAnswer disks d sector buf := by
  unfold memberRead memberAnswer
  by_cases hb : buf.length < 512
  · rw [if_pos hb, if_pos hb]; rfl
  rw [if_neg hb, if_neg hb, hx, hk]
  rw [SM.bind_ok (a := x) (s' := w) (h := rfl)]
  have hd' := MdDevice.patchyDev h
  obtain ⟨hG1, m, hc, hm⟩ := hd'.tryClone (w := w) (d := x) hG hI
  rcases hce : (MdDevice.dev dev).tryClone x w with ⟨w1, r1⟩
  rw [hce] at hG1 hc
  simp only at hG1 hc
  subst hc
  rw [SM.bind_ok (h := hce)]
  have := readThrough_patchy hd' hm hG1 sector (Nat.le_of_not_lt hb) hs
  rcases hre : readThrough (MdDevice.dev dev) sector buf (w1, Reader.new m) with ⟨⟨w2, r2⟩, y⟩
  rw [hre] at this
  simp only at this
  subst this
  simp only [SM.withLocal, hre]

/-- `f` answers as `g`, or fails if `F`, as long as `G` holds, and keeps `G`. -/
def SimulatesAt (F : Nat → Nat → Prop) (G : W → Prop) (f : Raid6Algorithm.ReadSectorFn W)
    (g : Nat → Nat → Bytes → Res (Nat × Bytes)) : Prop :=
  ∀ w d sec buf, G w → G (f w d sec buf).1 ∧
    ((F d sec ∧ ∃ e, (f w d sec buf).2 = .err e) ∨ (f w d sec buf).2 = g d sec buf)

theorem readBuffers_simAt {F : Nat → Nat → Prop} {f : Raid6Algorithm.ReadSectorFn W}
    {g : Nat → Nat → Bytes → Res (Nat × Bytes)} (h : SimulatesAt F G f g) (sec : Nat) (ds : List Nat) {w : W}
    (hG : G w) (hF : ∀ d ∈ ds, ¬ F d sec) :
    (Raid6Algorithm.readBuffers f sec w ds).2 = (Raid6Algorithm.readBuffers (pureFn g) sec () ds).2 := by
  induction ds generalizing w with
  | nil => rfl
  | cons d ds ih =>
    obtain ⟨h1, h2⟩ := h w d sec (zeros 512) hG
    rw [Raid6Algorithm.readBuffers, Raid6Algorithm.readBuffers]
    have hp : pureFn g () d sec (zeros 512) = ((), g d sec (zeros 512)) := rfl
    rw [hp]
    rcases hf : f w d sec (zeros 512) with ⟨w', r⟩
    rw [hf] at h1 h2
    simp only at h1 h2
    rcases h2 with ⟨hF', -⟩ | h2
    · exact absurd hF' (hF d List.mem_cons_self)
    rw [← h2]
    cases r with
    | err e => rfl
    | panic => rfl
    | ok v =>
      obtain ⟨m, b⟩ := v
      simp only
      by_cases hm : m ≠ b.length
      · rw [if_pos hm, if_pos hm]
      rw [if_neg hm, if_neg hm]
      have k2 := ih h1 fun d hd => hF d (List.mem_cons_of_mem _ hd)
      rcases hre : Raid6Algorithm.readBuffers f sec w' ds with ⟨w'', r⟩
      rcases hrp : Raid6Algorithm.readBuffers (pureFn g) sec () ds with ⟨u, r'⟩
      rw [hre, hrp] at k2
      simp only at k2
      subst k2
      cases r <;> rfl

theorem readSector_simAt {F : Nat → Nat → Prop} {f : Raid6Algorithm.ReadSectorFn W}
    {g : Nat → Nat → Bytes → Res (Nat × Bytes)} (h : SimulatesAt F G f g) (a : Raid6Algorithm)
    {sector c n : Nat} (hs : sector < U64) (hn : n < U32) {w : W} (hG : G w)
    (hF : ∀ d, d < n → ¬ F d (sector / c / (n - 2) * c + sector % c)) :
    (a.readSector sector c n f w).2 = (a.readSector sector c n (pureFn g) ()).2 := by
  rw [Raid6Algorithm.readSector, Raid6Algorithm.readSector]
  rcases hcs : a.computeSector sector c n with _ | ⟨sec, p, q, d⟩
  · rfl
  obtain ⟨-, -, rfl, -⟩ := a.computeSector_some hs hn hcs
  simp only
  have k2 := readBuffers_simAt h (sector / c / (n - 2) * c + sector % c) (List.range n) hG
    fun d hd => hF d (List.mem_range.mp hd)
  rcases hre : Raid6Algorithm.readBuffers f (sector / c / (n - 2) * c + sector % c) w (List.range n) with ⟨w'', r⟩
  rcases hrp : Raid6Algorithm.readBuffers (pureFn g) (sector / c / (n - 2) * c + sector % c) ()
    (List.range n) with ⟨u, r'⟩
  rw [hre, hrp] at k2
  simp only at k2
  subst k2
  cases r with
  | err e => rfl
  | panic => rfl
  | ok bufs =>
    simp only
    cases bufs[p]? with
    | none => rfl
    | some pbuf =>
      simp only
      split
      · cases bufs[d]? <;> rfl
      · rfl

end MdArray
end MdRecover
