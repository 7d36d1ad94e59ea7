import Verif.Lemmas.ArrayRead
import Verif.Spec.BlockTrace

/-! What reading through the block reader and from an array asks the devices for. -/

namespace MdRecover
open MdSpec

theorem mem_touched {p n bs b : Nat} (hbs : 0 < bs) (hn : n ≠ 0) :
    b ∈ touched p n bs ↔ b * bs < p + n ∧ p < (b + 1) * bs := by
  unfold touched
  rw [if_neg hn, List.mem_range'_1]
  have h1 : p / bs ≤ b ↔ p < (b + 1) * bs := by
    rw [← Nat.lt_succ_iff, Nat.div_lt_iff_lt_mul hbs]
  have h2 : b < (p + n - 1) / bs + 1 ↔ b * bs < p + n := by
    rw [Nat.lt_succ_iff, Nat.le_div_iff_mul_le hbs]
    omega
  have h3 : p / bs ≤ (p + n - 1) / bs := Nat.div_le_div_right (by omega)
  rw [← h1, ← h2]
  omega

theorem touched_zero (p bs : Nat) : touched p 0 bs = [] := if_pos rfl

theorem touched_cons {p n bs : Nat} (hbs : 0 < bs) (hn : n ≠ 0) :
    touched p n bs = p / bs :: touched (p + min n (bs - p % bs)) (n - min n (bs - p % bs)) bs := by
  have hm := Nat.mod_lt p hbs
  have hd := Nat.div_add_mod p bs
  rcases Nat.lt_or_ge (bs - p % bs) n with h | h
  · rw [Nat.min_eq_right (by omega)]
    have h1 : p + (bs - p % bs) = (p / bs + 1) * bs := by
      rw [Nat.add_mul, Nat.one_mul, Nat.mul_comm]; omega
    have h2 : (p + (bs - p % bs)) / bs = p / bs + 1 := by rw [h1, Nat.mul_div_cancel _ hbs]
    have h3 : p + (bs - p % bs) + (n - (bs - p % bs)) - 1 = p + n - 1 := by omega
    have h4 : p / bs + 1 ≤ (p + n - 1) / bs := by
      rw [← h2]; exact Nat.div_le_div_right (by omega)
    unfold touched
    rw [if_neg hn, if_neg (by omega), h2, h3,
      show (p + n - 1) / bs + 1 - p / bs = ((p + n - 1) / bs + 1 - (p / bs + 1)) + 1 by omega, List.range'_succ]
  · rw [Nat.min_eq_left h, Nat.sub_self, touched_zero]
    have h1 : (p + n - 1) / bs = p / bs := by
      have e : p + n - 1 = p % bs + n - 1 + bs * (p / bs) := by omega
      rw [e, Nat.add_mul_div_left _ _ hbs, Nat.div_eq_of_lt (by omega), Nat.zero_add]
    unfold touched
    rw [if_neg hn, h1, show p / bs + 1 - p / bs = 1 by omega]
    rfl

/-- On a disk `k` the device asks for `full b` when block `b` is read, or, if that fails, for a beginning of it. -/
structure AsksFor {W D A : Type} (dev : BlockDev W D) (log : W → List A) (G : W → Prop) (Is : D → Disk → Prop)
    (k : Disk) (full : Nat → List A) : Prop where
  blockSize : ∀ w d, log (dev.blockSize d w).1 = log w
  blockCount : ∀ w d, log (dev.blockCount d w).1 = log w
  tryClone : ∀ w d, log (dev.tryClone d w).1 = log w
  readBlock : ∀ {w d}, G w → Is d k → ∀ b buf, b < k.n → buf.length = k.bs → ∃ asked,
    log (dev.readBlock b buf (w, d)).1.1 = log w ++ asked ∧ asked <+: full b ∧
      (∀ a, (dev.readBlock b buf (w, d)).2 = .ok a → asked = full b)

section
variable {W D : Type} {F : Prop} {G : W → Prop}

namespace Reader
variable {A : Type} {dev : BlockDev W D} {Is : D → Disk → Prop} {log : W → List A} {k : Disk} {full : Nat → List A}

theorem read_asked (hd : DevSpec F dev G Is) (ha : AsksFor dev log G Is k full) {w : W} {r : Reader D} {pos : Nat}
    (hG : G w) (hr : At Is k r pos) (buf : Bytes) {s : W × Reader D} {x : Res (Nat × Bytes)}
    (h : read dev buf (w, r) = (s, x)) :
    ∃ asked, log s.1 = log w ++ asked ∧ asked <+: full (pos / k.bs) ∧
      ∀ j buf', x = .ok (j, buf') → (k.n ≤ pos / k.bs ∧ j = 0) ∨
        (asked = full (pos / k.bs) ∧ j = min buf.length (k.bs - pos % k.bs)) := by
  have hw := hd.wf hr.is
  have hpos : pos / k.bs = r.blockPos ∧ pos % k.bs = r.bytePos := by
    rw [hr.pos_eq, Nat.mul_comm]
    exact ⟨by rw [Nat.mul_add_div hw.bs_pos, Nat.div_eq_of_lt hr.byte_lt, Nat.add_zero],
      by rw [Nat.mul_add_mod, Nat.mod_eq_of_lt hr.byte_lt]⟩
  rw [hpos.1, hpos.2]
  have hl1 := ha.blockCount w r.device
  obtain ⟨hG1, hcnt⟩ := hd.blockCount hG hr.is
  rcases hbc : dev.blockCount r.device w with ⟨w1, x1⟩
  rw [hbc] at hG1 hcnt hl1
  simp only at hG1 hcnt hl1
  have hon1 : onWorld dev.blockCount (w, r) = ((w1, r), x1) := by simp only [onWorld, hbc]
  unfold read at h
  rw [SM.bind_ok (h := SM.get_apply _)] at h
  simp only at h
  rcases hcnt with rfl | ⟨hF, e, rfl⟩
  rotate_left
  · rw [SM.bind_err (h := hon1)] at h
    cases h
    exact ⟨[], by rw [List.append_nil, hl1], List.nil_prefix, fun _ _ h => by cases h⟩
  rw [SM.bind_ok (h := hon1)] at h
  by_cases hend : k.n ≤ r.blockPos
  · rw [if_pos hend] at h
    cases h
    exact ⟨[], by rw [List.append_nil, hl1], List.nil_prefix, fun j b h => by cases h; exact .inl ⟨hend, rfl⟩⟩
  rw [if_neg hend] at h
  have hl2 := ha.blockSize w1 r.device
  obtain ⟨hG2, hbs⟩ := hd.blockSize hG1 hr.is
  rcases hbc2 : dev.blockSize r.device w1 with ⟨w2, x2⟩
  rw [hbc2] at hG2 hbs hl2
  simp only at hG2 hbs hl2
  have hon2 : onWorld dev.blockSize (w1, r) = ((w2, r), x2) := by simp only [onWorld, hbc2]
  rcases hbs with rfl | ⟨hF, e, rfl⟩
  rotate_left
  · rw [SM.bind_err (h := hon2)] at h
    cases h
    exact ⟨[], by rw [List.append_nil, hl2, hl1], List.nil_prefix, fun _ _ h => by cases h⟩
  rw [SM.bind_ok (h := hon2)] at h
  obtain ⟨asked, h1, h2, h3⟩ := ha.readBlock hG2 hr.is r.blockPos (zeros k.bs) (by omega) List.length_replicate
  obtain ⟨-, -, hrb⟩ := hd.readBlock hG2 hr.is r.blockPos (zeros k.bs) (by omega) List.length_replicate
  rcases hbc3 : dev.readBlock r.blockPos (zeros k.bs) (w2, r.device) with ⟨⟨w3, d3⟩, x3⟩
  rw [hbc3] at h1 h3 hrb
  simp only at h1 h3 hrb
  rw [hl2, hl1] at h1
  have hon3 : onDevice (dev.readBlock r.blockPos (zeros k.bs)) (w2, r) =
      ((w3, { r with device := d3 }), x3) := by simp only [onDevice, SM.zoom, hbc3]
  rcases hrb with rfl | ⟨hF, e, rfl⟩
  rotate_left
  · rw [SM.bind_err (h := hon3)] at h
    cases h
    exact ⟨asked, h1, h2, fun _ _ h => by cases h⟩
  rw [SM.bind_ok (h := hon3)] at h
  simp only [copyOut] at h
  rw [SM.bind_ok (h := SM.get_apply _)] at h
  simp only at h
  have hlt := hr.byte_lt
  rw [SM.bind_ok (a := k.bs - r.bytePos) (s' := (w3, { r with device := d3 }))
    (h := by simp [subP, Nat.le_of_lt hlt]), SM.bind_ok (h := SM.modify_apply _ _), SM.pure_apply] at h
  cases h
  exact ⟨asked, h1, h2, fun j b h => by cases h; exact .inr ⟨h3 _ rfl, rfl⟩⟩

theorem readExactLoop_asked (hd : DevSpec F dev G Is) (ha : AsksFor dev log G Is k full) :
    ∀ (fuel : Nat) {w : W} {r : Reader D} {pos : Nat} (buf : Bytes) {s : W × Reader D} {x : Res Bytes}, G w →
      At Is k r pos → buf.length ≤ fuel → readExactLoop (read dev) fuel buf (w, r) = (s, x) →
      ∃ asked, log s.1 = log w ++ asked ∧ asked <+: (touched pos buf.length k.bs).flatMap full ∧
        ∀ b, x = .ok b → asked = (touched pos buf.length k.bs).flatMap full
  | 0, w, r, pos, buf, s, x, hG, hr, hf, h => by
    have : buf = [] := List.eq_nil_of_length_eq_zero (by omega)
    subst this
    cases h
    exact ⟨[], (List.append_nil _).symm, List.nil_prefix, fun _ _ => rfl⟩
  | fuel + 1, w, r, pos, buf, s, x, hG, hr, hf, h => by
    rw [readExactLoop] at h
    by_cases hb : buf = []
    · subst hb
      cases h
      exact ⟨[], (List.append_nil _).symm, List.nil_prefix, fun _ _ => rfl⟩
    rw [if_neg hb] at h
    have hw := hd.wf hr.is
    have hblen : 0 < buf.length := List.length_pos_iff.mpr hb
    obtain ⟨w1, r1, hG1, h1⟩ := read_spec hd hG hr buf
    have key : ∀ x1, read dev buf (w, r) = ((w1, r1), x1) → _ := fun x1 hx1 => read_asked hd ha hG hr buf hx1
    rw [touched_cons hw.bs_pos (by omega), List.flatMap_cons]
    rcases h1 with ⟨hF, e, h1, hr1⟩ | ⟨j, buf', pos', h1, hsr, hr1⟩
    · obtain ⟨asked, h2, h3, -⟩ := key _ h1
      rw [SM.bind_err (h := h1)] at h
      cases h
      exact ⟨asked, h2, h3.trans (List.prefix_append _ _), fun b h => by cases h⟩
    obtain ⟨asked, h2, h3, h4⟩ := key _ h1
    rw [SM.bind_ok (h := h1)] at h
    simp only at h
    have hle := hsr.le
    by_cases hj : j = 0
    · rw [if_pos hj] at h
      cases h
      exact ⟨asked, h2, h3.trans (List.prefix_append _ _), fun b h => by cases h⟩
    rw [if_neg hj] at h
    have hin := hsr.inside (by omega)
    have hbl : buf'.length = buf.length := by
      rw [hsr.data, List.length_append, List.length_take, List.length_drop, List.length_drop]; omega
    rw [if_neg (by omega)] at h
    have hdl : (buf'.drop j).length = buf.length - j := by rw [List.length_drop, hbl]
    obtain ⟨rfl, hjm⟩ := (h4 j buf' rfl).resolve_left fun h => hj h.2
    rcases hy : readExactLoop (read dev) fuel (buf'.drop j) (w1, r1) with ⟨s2, x2⟩
    obtain ⟨asked', h5, h6, h7⟩ := readExactLoop_asked hd ha fuel (buf'.drop j) hG1 hr1 (by omega) hy
    rw [hdl, hsr.moved, hjm] at h6 h7
    have hs : s = s2 ∧ ((∃ b, x = .ok b) → ∃ b, x2 = .ok b) := by
      cases x2 with
      | ok b => rw [SM.bind_ok (h := hy)] at h; cases h; exact ⟨rfl, fun _ => ⟨b, rfl⟩⟩
      | err e => rw [SM.bind_err (h := hy)] at h; cases h; exact ⟨rfl, fun ⟨_, h⟩ => by cases h⟩
      | panic => rw [SM.bind_panic (h := hy)] at h; cases h; exact ⟨rfl, fun ⟨_, h⟩ => by cases h⟩
    obtain ⟨rfl, hx2⟩ := hs
    refine ⟨_ ++ asked', by rw [h5, h2, List.append_assoc], (List.prefix_append_right_inj _).2 h6, fun b hb => ?_⟩
    obtain ⟨b2, hb2⟩ := hx2 ⟨b, hb⟩
    rw [h7 b2 hb2]

/-- Seeking to `p` and filling a buffer. -/
theorem seekRead_asked (hd : DevSpec F dev G Is) (ha : AsksFor dev log G Is k full) {w : W} {r : Reader D} {pos : Nat}
    (hG : G w) (hr : At Is k r pos) {p : Nat} (hp : p < U64) (buf : Bytes) {s : W × Reader D} {x : Res Bytes}
    (h : (do let _ ← seek dev (.start p); readExact (read dev) buf) (w, r) = (s, x)) :
    ∃ asked, log s.1 = log w ++ asked ∧ asked <+: (touched p buf.length k.bs).flatMap full ∧
      ∀ b, x = .ok b → asked = (touched p buf.length k.bs).flatMap full := by
  have hlog : ∀ {s : W × Reader D} {y : Res Nat}, seek dev (.start p) (w, r) = (s, y) → log s.1 = log w := by
    intro s y hs
    unfold seek seekTarget at hs
    rw [SM.bind_ok (a := p) (s' := (w, r)) (h := rfl)] at hs
    have h2 := ha.blockSize w r.device
    rcases hb : dev.blockSize r.device w with ⟨w2, y2⟩
    rw [hb] at h2
    have hon : onWorld dev.blockSize (w, r) = ((w2, r), y2) := by simp only [onWorld, hb]
    cases y2 with
    | err e => rw [SM.bind_err (h := hon)] at hs; cases hs; exact h2
    | panic => rw [SM.bind_panic (h := hon)] at hs; cases hs; exact h2
    | ok bs =>
      rw [SM.bind_ok (h := hon)] at hs
      cases hq : divP p bs with
      | err e =>
        rw [hq, SM.bind_err (e := e) (s' := (w2, r)) (h := rfl)] at hs
        cases hs; exact h2
      | panic =>
        rw [hq, SM.bind_panic (s' := (w2, r)) (h := rfl)] at hs
        cases hs; exact h2
      | ok q =>
        rw [hq, SM.bind_ok (a := q) (s' := (w2, r)) (h := rfl)] at hs
        cases hs; exact h2
  obtain ⟨w1, r1, hG1, h1⟩ := seek_spec hd hG hr (.start p) (fun q hq => by cases hq; omega)
  rcases h1 with ⟨hF, e, h1, _⟩ | ⟨hbad, _⟩ | ⟨q, hq, hql, h1, hr1⟩
  · rw [SM.bind_err (h := h1)] at h
    cases h
    exact ⟨[], by rw [List.append_nil]; exact hlog h1, List.nil_prefix, fun _ h => by cases h⟩
  · exact absurd ⟨by simp [seekGoal], by simp only [seekGoal]; omega⟩ hbad
  have hpq : p = q := by simp only [seekGoal] at hq; omega
  subst hpq
  rw [SM.bind_ok (h := h1)] at h
  obtain ⟨asked, h2, h3, h4⟩ := readExactLoop_asked hd ha _ buf hG1 hr1 (Nat.le_refl _) h
  exact ⟨asked, by rw [h2, hlog h1], h3, h4⟩

end Reader

section
variable {N : Type} {dev : BlockDev W D} {Is : D → Disk → Prop}

/-- The device with names and a log is as good as the device. -/
theorem namedDev_spec (hd : DevSpec F dev G Is) :
    DevSpec F (namedDev N dev) (fun w => G w.1) (fun d k => Is d.2 k) where
  wf h := hd.wf h
  blockSize hG h := hd.blockSize hG h
  blockCount hG h := hd.blockCount hG h
  readBlock hG h b buf hb hl := hd.readBlock hG h b buf hb hl
  tryClone {w d k} hG h := by
    obtain ⟨h1, h2⟩ := hd.tryClone hG h
    rcases hc : dev.tryClone d.2 w.1 with ⟨w', r⟩
    rw [hc] at h1 h2
    have he : (namedDev N dev).tryClone d w = (match dev.tryClone d.2 w.1 with
      | (w', .ok d') => ((w', w.2), .ok (d.1, d'))
      | (w', .err e) => ((w', w.2), .err e)
      | (w', .panic) => ((w', w.2), .panic)) := rfl
    rw [he, hc]
    rcases h2 with ⟨d', h2, hi⟩ | ⟨hF, e, h2⟩
    · simp only at h2
      subst h2
      exact ⟨h1, .inl ⟨_, rfl, hi⟩⟩
    · simp only at h2
      subst h2
      exact ⟨h1, .inr ⟨hF, e, rfl⟩⟩

/-- The same, of the handles with one name. -/
theorem namedDev_spec' (hd : DevSpec F dev G Is) (x : N) :
    DevSpec F (namedDev N dev) (fun w => G w.1) (fun d k => d.1 = x ∧ Is d.2 k) where
  wf h := hd.wf h.2
  blockSize hG h := hd.blockSize hG h.2
  blockCount hG h := hd.blockCount hG h.2
  readBlock hG h b buf hb hl := by
    obtain ⟨h1, h2, h3⟩ := hd.readBlock hG h.2 b buf hb hl
    exact ⟨h1, ⟨h.1, h2⟩, h3⟩
  tryClone {w d k} hG h := by
    obtain ⟨h1, h2⟩ := hd.tryClone hG h.2
    rcases hc : dev.tryClone d.2 w.1 with ⟨w', r⟩
    rw [hc] at h1 h2
    have he : (namedDev N dev).tryClone d w = (match dev.tryClone d.2 w.1 with
      | (w', .ok d') => ((w', w.2), .ok (d.1, d'))
      | (w', .err e) => ((w', w.2), .err e)
      | (w', .panic) => ((w', w.2), .panic)) := rfl
    rw [he, hc]
    rcases h2 with ⟨d', h2, hi⟩ | ⟨hF, e, h2⟩
    · simp only at h2
      subst h2
      exact ⟨h1, .inl ⟨_, rfl, h.1, hi⟩⟩
    · simp only at h2
      subst h2
      exact ⟨h1, .inr ⟨hF, e, rfl⟩⟩

theorem named_clone_log (w : W × List (N × Nat)) (d : N × D) : ((namedDev N dev).tryClone d w).1.2 = w.2 := by
  show (match dev.tryClone d.2 w.1 with
      | (w', .ok d') => ((w', w.2), Res.ok (d.1, d'))
      | (w', .err e) => ((w', w.2), .err e)
      | (w', .panic) => ((w', w.2), .panic)).1.2 = w.2
  rcases dev.tryClone d.2 w.1 with ⟨w', r⟩
  cases r <;> rfl

theorem namedDev_asks (G : W → Prop) (Is : D → Disk → Prop) (x : N) (k : Disk) :
    AsksFor (namedDev N dev) Prod.snd (fun w => G w.1) (fun d k => d.1 = x ∧ Is d.2 k) k (fun b => [(x, b)]) where
  blockSize w d := rfl
  blockCount w d := rfl
  tryClone := named_clone_log
  readBlock {w d} hG h b buf hb hl := ⟨[(x, b)], by rw [← h.1]; rfl, List.prefix_rfl, fun _ _ => rfl⟩

namespace MdArray

/-- Reading a sector of a member. -/
theorem memberRead_asked (hd : DevSpec F dev G Is) {devices : HMap Nat (MdDevice (N × D))} {name : Nat → N}
    {bs : Nat → Nat} {i : Nat}
    (hm : ∀ m, devices.get i = some m → m.device.1 = name i ∧ ∃ k, Is m.device.2 k ∧ k.bs = bs i) (sector : Nat) {w : W × List (N × Nat)} (hG : G w.1) {w' : W × List (N × Nat)} {x : Res (Nat × Bytes)}
    (h : memberRead (namedDev N dev) devices i sector (zeros 512) w = (w', x)) :
    G w'.1 ∧ ∃ asked, w'.2 = w.2 ++ asked ∧ asked <+: sectorOf name bs sector i ∧
      ∀ a, x = .ok a → asked = sectorOf name bs sector i := by
  have hz : (zeros 512).length = 512 := List.length_replicate
  unfold memberRead at h
  rw [if_neg (by omega)] at h
  cases hget : devices.get i with
  | none =>
    rw [hget, SM.bind_err (e := .invalidInput) (s' := w) (h := rfl)] at h
    cases h
    exact ⟨hG, [], (List.append_nil _).symm, List.nil_prefix, fun _ h => by cases h⟩
  | some m =>
  obtain ⟨h1, k, h2, h3⟩ := hm m hget
  rw [hget, SM.bind_ok (a := m) (s' := w) (h := rfl)] at h
  have hd' := MdDevice.devSpec (namedDev_spec' (N := N) hd (name i))
  have ha : AsksFor (MdDevice.dev (namedDev N dev)) Prod.snd (fun w => G w.1)
      (fun m k => m.device.1 = name i ∧ Is m.device.2 k) k (fun b => [(name i, b)]) :=
    { blockSize := fun w d => rfl
      blockCount := fun w d => rfl
      tryClone := fun w d => by
        have := named_clone_log (dev := dev) w d.device
        show ((namedDev N dev).tryClone d.device >>= fun d' => pure { d with device := d' }) w |>.1.2 = w.2
        rcases hc : (namedDev N dev).tryClone d.device w with ⟨w2, y⟩
        rw [hc] at this
        cases y with
        | ok d' => rw [SM.bind_ok (h := hc)]; exact this
        | err e => rw [SM.bind_err (h := hc)]; exact this
        | panic => rw [SM.bind_panic (h := hc)]; exact this
      readBlock := fun {w d} hG h b buf hb hl => (namedDev_asks (dev := dev) G Is (name i) k).readBlock hG h b buf hb hl }
  obtain ⟨hG1, hc⟩ := hd'.tryClone (w := w) hG ⟨h1, h2⟩
  have hcl := ha.tryClone w m
  rcases hce : (MdDevice.dev (namedDev N dev)).tryClone m w with ⟨w1, r1⟩
  rw [hce] at hG1 hc hcl
  simp only at hG1 hc hcl
  have hfull : sectorOf name bs sector i = (touched (sector * 512) 512 k.bs).flatMap fun b => [(name i, b)] := by
    rw [h3, sectorOf]
    induction touched (sector * 512) 512 (bs i) with
    | nil => rfl
    | cons b l ih => rw [List.map_cons, List.flatMap_cons, ih]; rfl
  rcases hc with ⟨m', hc, hm'⟩ | ⟨hF, e, hc⟩
  rotate_left
  · subst hc
    rw [SM.bind_err (h := hce)] at h
    cases h
    exact ⟨hG1, [], by rw [List.append_nil, hcl], List.nil_prefix, fun _ h => by cases h⟩
  subst hc
  rw [SM.bind_ok (h := hce)] at h
  obtain ⟨w2, r2, hG2, hr2⟩ := readThrough_spec hd' hm' hG1 sector (buf := zeros 512) (by omega)
  have hG' : G w'.1 := by
    unfold SM.withLocal at h
    rcases hr2 with ⟨-, e, hr2⟩ | hr2 <;> (rw [hr2] at h; cases h; exact hG2)
  refine ⟨hG', ?_⟩
  clear hr2
  rcases hrt : readThrough (MdDevice.dev (namedDev N dev)) sector (zeros 512) (w1, Reader.new m') with ⟨s3, x3⟩
  have hw' : w' = s3.1 ∧ x = x3 := by
    unfold SM.withLocal at h
    rw [hrt] at h
    cases h
    exact ⟨rfl, rfl⟩
  obtain ⟨rfl, rfl⟩ := hw'
  unfold readThrough at hrt
  rw [checkedMul64_eq] at hrt
  by_cases hs : U64 ≤ sector * 512
  · rw [if_neg (by omega)] at hrt
    cases hrt
    exact ⟨[], by rw [List.append_nil, hcl], List.nil_prefix, fun _ h => by cases h⟩
  rw [if_pos (by omega), SM.bind_ok (a := sector * 512) (s' := (w1, Reader.new m')) (h := rfl)] at hrt
  have hr := Reader.at_new (Is := fun (m : MdDevice (N × D)) k => m.device.1 = name i ∧ Is m.device.2 k)
    (hd'.wf hm') hm'
  have hl : ((zeros 512).take 512).length = 512 := by rw [List.length_take]; omega
  rcases hsr : (do
      let _ ← Reader.seek (MdDevice.dev (namedDev N dev)) (.start (sector * 512))
      readExact (Reader.read (MdDevice.dev (namedDev N dev))) ((zeros 512).take 512)) (w1, Reader.new m') with ⟨s4, x4⟩
  obtain ⟨asked, h4, h5, h6⟩ := Reader.seekRead_asked hd' ha hG1 hr (by omega) _ hsr
  rw [hl, ← hfull] at h5 h6
  have hsame : s3 = s4 ∧ ((∃ a, x = .ok a) → ∃ a, x4 = .ok a) := by
    rcases hse : Reader.seek (MdDevice.dev (namedDev N dev)) (.start (sector * 512)) (w1, Reader.new m') with ⟨s5, x5⟩
    cases x5 with
    | err e =>
      rw [SM.bind_err (h := hse)] at hrt hsr
      cases hrt; cases hsr
      exact ⟨rfl, fun ⟨_, h⟩ => by cases h⟩
    | panic =>
      rw [SM.bind_panic (h := hse)] at hrt hsr
      cases hrt; cases hsr
      exact ⟨rfl, fun ⟨_, h⟩ => by cases h⟩
    | ok q =>
      rw [SM.bind_ok (h := hse)] at hrt hsr
      cases x4 with
      | err e => rw [SM.bind_err (h := hsr)] at hrt; cases hrt; exact ⟨rfl, fun ⟨_, h⟩ => by cases h⟩
      | panic => rw [SM.bind_panic (h := hsr)] at hrt; cases hrt; exact ⟨rfl, fun ⟨_, h⟩ => by cases h⟩
      | ok b => rw [SM.bind_ok (h := hsr)] at hrt; cases hrt; exact ⟨rfl, fun _ => ⟨b, rfl⟩⟩
  obtain ⟨rfl, hx4⟩ := hsame
  refine ⟨asked, by rw [h4, hcl], h5, fun a ha => ?_⟩
  obtain ⟨b, hb⟩ := hx4 ⟨a, ha⟩
  exact h6 b hb

/-- Reading a sector of every member in turn. -/
theorem readBuffers_asked (hd : DevSpec F dev G Is) {devices : HMap Nat (MdDevice (N × D))} {name : Nat → N}
    {bs : Nat → Nat} (sector : Nat) (ds : List Nat)
    (hm : ∀ i, i ∈ ds → ∀ m, devices.get i = some m → m.device.1 = name i ∧ ∃ k, Is m.device.2 k ∧ k.bs = bs i) :
    ∀ {w w' : W × List (N × Nat)} {x : Res (List Bytes)}, G w.1 →
      Raid6Algorithm.readBuffers (fun w d sec b => memberRead (namedDev N dev) devices d sec b w) sector w ds =
        (w', x) →
      ∃ asked, w'.2 = w.2 ++ asked ∧ asked <+: ds.flatMap (sectorOf name bs sector) ∧
        ∀ a, x = .ok a → asked = ds.flatMap (sectorOf name bs sector) := by
  induction ds with
  | nil =>
    intro w w' x hG h
    rw [Raid6Algorithm.readBuffers] at h
    cases h
    exact ⟨[], (List.append_nil _).symm, List.nil_prefix, fun _ _ => rfl⟩
  | cons d ds ih =>
    intro w w' x hG h
    rw [Raid6Algorithm.readBuffers] at h
    rcases h1 : memberRead (namedDev N dev) devices d sector (zeros 512) w with ⟨w1, x1⟩
    obtain ⟨hG1, asked, h2, h3, h4⟩ := memberRead_asked hd (hm d List.mem_cons_self) sector hG h1
    simp only [h1] at h
    rw [List.flatMap_cons]
    cases x1 with
    | err e =>
      cases h
      exact ⟨asked, h2, h3.trans (List.prefix_append _ _), fun _ h => by cases h⟩
    | panic =>
      cases h
      exact ⟨asked, h2, h3.trans (List.prefix_append _ _), fun _ h => by cases h⟩
    | ok a =>
      obtain ⟨n, buf⟩ := a
      obtain rfl := h4 _ rfl
      simp only at h
      by_cases hn : n ≠ buf.length
      · rw [if_pos hn] at h
        cases h
        exact ⟨_, h2, List.prefix_append _ _, fun _ h => by cases h⟩
      rw [if_neg hn] at h
      rcases h5 : Raid6Algorithm.readBuffers
        (fun w d sec b => memberRead (namedDev N dev) devices d sec b w) sector w1 ds with ⟨w2, x2⟩
      obtain ⟨asked', h6, h7, h8⟩ := ih (fun i hi => hm i (List.mem_cons_of_mem _ hi)) hG1 h5
      rw [h5] at h
      have hw : w' = w2 ∧ ((∃ a, x = .ok a) → ∃ a, x2 = .ok a) := by
        cases x2 with
        | ok b => cases h; exact ⟨rfl, fun _ => ⟨b, rfl⟩⟩
        | err e => cases h; exact ⟨rfl, fun ⟨_, h⟩ => by cases h⟩
        | panic => cases h; exact ⟨rfl, fun ⟨_, h⟩ => by cases h⟩
      obtain ⟨rfl, hx2⟩ := hw
      refine ⟨_ ++ asked', by rw [h6, h2, List.append_assoc], (List.prefix_append_right_inj _).2 h7, fun a ha => ?_⟩
      obtain ⟨b, hb⟩ := hx2 ⟨a, ha⟩
      rw [h8 b hb]

/-- Reading a sector of the array. -/
theorem readBlock_asked (hd : DevSpec F dev G Is) {a : ArrayDef (N × D)} {alg : Raid6Algorithm} {n size c : Nat}
    (hf : formatInUse a = some ⟨.raid6 alg, n, size, c⟩) {name : Nat → N} {bs : Nat → Nat}
    (hm : ∀ i, i < n → ∀ m, a.devices.get i = some m → m.device.1 = name i ∧ ∃ k, Is m.device.2 k ∧ k.bs = bs i)
    {b : Nat} (hb : b < U64) (hn : n < U32) (buf : Bytes) {w : W × List (N × Nat)} (hG : G w.1) :
    ∃ asked, (readBlock (namedDev N dev) b buf (w, a)).1.1.2 = w.2 ++ asked ∧ asked <+: stripeOf name bs n c b ∧
      ∀ r, (readBlock (namedDev N dev) b buf (w, a)).2 = .ok r → asked = stripeOf name bs n c b := by
  unfold readBlock
  by_cases hl : buf.length < 512
  · rw [if_pos hl]
    exact ⟨[], (List.append_nil _).symm, List.nil_prefix, fun _ h => by cases h⟩
  rw [if_neg hl]
  simp only [hf, MdAlgorithm.readSector]
  rcases hrs : alg.readSector b c n (fun w d sec b => memberRead (namedDev N dev) a.devices d sec b w) w with ⟨w1, y⟩
  have key : ∃ asked, w1.2 = w.2 ++ asked ∧ asked <+: stripeOf name bs n c b ∧
      ∀ r, y = .ok r → asked = stripeOf name bs n c b := by
    unfold Raid6Algorithm.readSector at hrs
    rcases hcs : alg.computeSector b c n with _ | ⟨sec, p, q, d⟩
    · rw [hcs] at hrs
      cases hrs
      exact ⟨[], (List.append_nil _).symm, List.nil_prefix, fun _ h => by cases h⟩
    obtain ⟨-, -, hsec, -, -, -⟩ := alg.computeSector_some hb hn hcs
    rw [Nat.div_div_eq_div_mul] at hsec
    rcases hrb : Raid6Algorithm.readBuffers (fun w d sec b => memberRead (namedDev N dev) a.devices d sec b w) sec w
      (List.range n) with ⟨w', x⟩
    obtain ⟨asked, h1, h2, h3⟩ :=
      readBuffers_asked hd sec (List.range n) (fun i hi => hm i (List.mem_range.1 hi)) hG hrb
    have hst : stripeOf name bs n c b = (List.range n).flatMap (sectorOf name bs sec) := by rw [hsec]; rfl
    rw [← hst] at h2 h3
    rw [hcs] at hrs
    simp only at hrs
    rw [hrb] at hrs
    cases x with
    | err e => cases hrs; exact ⟨asked, h1, h2, fun _ h => by cases h⟩
    | panic => cases hrs; exact ⟨asked, h1, h2, fun _ h => by cases h⟩
    | ok bufs =>
      have hw : w1 = w' := by
        simp only at hrs
        refine (congrArg Prod.fst hrs).symm.trans ?_
        clear hrs
        repeat' split
        all_goals rfl
      rw [hw]
      exact ⟨asked, h1, h2, fun _ _ => h3 bufs rfl⟩
  obtain ⟨asked, h1, h2, h3⟩ := key
  cases y with
  | err e => exact ⟨asked, h1, h2, fun _ h => by cases h⟩
  | panic => exact ⟨asked, h1, h2, fun _ h => by cases h⟩
  | ok block =>
    refine ⟨asked, ?_, h2, fun _ _ => h3 block rfl⟩
    simp only
    split <;> exact h1

end MdArray
end
end
end MdRecover
