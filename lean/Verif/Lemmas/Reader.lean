import Verif.Model.Reader
import Verif.Spec.Device
import Verif.Spec.Stream
import Verif.Lemmas.Basic

namespace MdRecover
open MdSpec

namespace Reader
variable {W D : Type}

/-- The reader stands at byte `pos` of disk `k`. -/
structure At (Is : D → Disk → Prop) (k : Disk) (r : Reader D) (pos : Nat) : Prop where
  is : Is r.device k
  pos_eq : pos = r.blockPos * k.bs + r.bytePos
  byte_lt : r.bytePos < k.bs
  pos_lt : pos < U64

theorem at_new {Is : D → Disk → Prop} {k : Disk} {d : D} (hw : k.Wf) (h : Is d k) :
    At Is k (new d) 0 :=
  ⟨h, by simp [new], hw.bs_pos, by decide⟩

theorem block_content {k : Disk} (hw : k.Wf) {b : Nat} (hb : b < k.n) :
    ((k.content.drop (b * k.bs)).take k.bs).length = k.bs := by
  have : (b + 1) * k.bs ≤ k.n * k.bs := Nat.mul_le_mul_right _ hb
  rw [Nat.add_mul] at this
  rw [List.length_take, List.length_drop, hw.len]
  omega

/-- What a read does: an error without moving, or a stream read. -/
theorem read_spec {F : Prop} {dev : BlockDev W D} {G : W → Prop} {Is : D → Disk → Prop}
    (hd : DevSpec F dev G Is) {k : Disk} {w : W} {r : Reader D} {pos : Nat} (hG : G w)
    (hr : At Is k r pos) (buf : Bytes) :
    ∃ w' r', G w' ∧
      ((F ∧ ∃ e, read dev buf (w, r) = ((w', r'), .err e) ∧ At Is k r' pos) ∨
       (∃ j buf' pos', read dev buf (w, r) = ((w', r'), .ok (j, buf')) ∧
          StreamRead k.content pos buf j buf' pos' ∧ At Is k r' pos')) := by
  have hw := hd.wf hr.is
  obtain ⟨hG1, hcnt⟩ := hd.blockCount hG hr.is
  rcases hbc : dev.blockCount r.device w with ⟨w1, x1⟩
  rw [hbc] at hG1 hcnt
  simp only at hG1 hcnt
  have hon1 : onWorld dev.blockCount (w, r) = ((w1, r), x1) := by simp only [onWorld, hbc]
  unfold read
  rw [SM.bind_ok (h := SM.get_apply _)]
  simp only
  rcases hcnt with rfl | ⟨hF, e, rfl⟩
  rotate_left
  · rw [SM.bind_err (h := hon1)]
    exact ⟨w1, r, hG1, .inl ⟨hF, e, rfl, hr⟩⟩
  rw [SM.bind_ok (h := hon1)]
  by_cases hend : k.n ≤ r.blockPos
  · rw [if_pos hend]
    refine ⟨w1, r, hG1, .inr ⟨0, buf, pos, rfl, ?_, hr⟩⟩
    refine ⟨by omega, by omega, by simp, by omega, fun _ => .inr ?_⟩
    rw [hw.len, hr.pos_eq]
    have := Nat.mul_le_mul_right k.bs hend
    omega
  rw [if_neg hend]
  obtain ⟨hG2, hbs⟩ := hd.blockSize hG1 hr.is
  rcases hbc2 : dev.blockSize r.device w1 with ⟨w2, x2⟩
  rw [hbc2] at hG2 hbs
  simp only at hG2 hbs
  have hon2 : onWorld dev.blockSize (w1, r) = ((w2, r), x2) := by simp only [onWorld, hbc2]
  rcases hbs with rfl | ⟨hF, e, rfl⟩
  rotate_left
  · rw [SM.bind_err (h := hon2)]
    exact ⟨w2, r, hG2, .inl ⟨hF, e, rfl, hr⟩⟩
  rw [SM.bind_ok (h := hon2)]
  obtain ⟨hG3, hIs3, hrb⟩ := hd.readBlock hG2 hr.is r.blockPos (zeros k.bs) (by omega)
    List.length_replicate
  rcases hbc3 : dev.readBlock r.blockPos (zeros k.bs) (w2, r.device) with ⟨⟨w3, d3⟩, x3⟩
  rw [hbc3] at hG3 hIs3 hrb
  simp only at hG3 hIs3 hrb
  have hon3 : onDevice (dev.readBlock r.blockPos (zeros k.bs)) (w2, r) =
      ((w3, { r with device := d3 }), x3) := by simp only [onDevice, SM.zoom, hbc3]
  rcases hrb with rfl | ⟨hF, e, rfl⟩
  rotate_left
  · rw [SM.bind_err (h := hon3)]
    exact ⟨w3, _, hG3, .inl ⟨hF, e, rfl, hIs3, hr.pos_eq, hr.byte_lt, hr.pos_lt⟩⟩
  rw [SM.bind_ok (h := hon3)]
  simp only [copyOut]
  rw [SM.bind_ok (h := SM.get_apply _)]
  simp only
  have hlt := hr.byte_lt
  rw [SM.bind_ok (a := k.bs - r.bytePos) (s' := (w3, { r with device := d3 }))
    (h := by simp [subP, Nat.le_of_lt hlt])]
  rw [SM.bind_ok (h := SM.modify_apply _ _)]
  rw [SM.pure_apply]
  have hble : (r.blockPos + 1) * k.bs ≤ k.n * k.bs := Nat.mul_le_mul_right _ (by omega)
  rw [Nat.add_mul, Nat.one_mul] at hble
  have hsz := hw.size_lt
  have hlen := hw.len
  have hpe := hr.pos_eq
  refine ⟨w3, _, hG3, .inr ⟨_, _, pos + min buf.length (k.bs - r.bytePos), rfl, ?_, ?_⟩⟩
  · refine ⟨Nat.min_le_left _ _, rfl, ?_, ?_, ?_⟩
    · rw [overwrite, slice, List.drop_take, List.take_take, List.drop_drop, ← hpe]
      have hm : min (min buf.length (k.bs - r.bytePos)) (k.bs - r.bytePos) =
          min buf.length (k.bs - r.bytePos) := by omega
      rw [hm]
      congr 2
      rw [List.length_take, List.length_drop, hlen]
      omega
    · intro _
      rw [hlen]; omega
    · intro h0
      left
      have : buf.length = 0 := by omega
      exact List.eq_nil_of_length_eq_zero this
  · unfold advance
    split
    · rename_i hge
      refine ⟨hIs3, ?_, hw.bs_pos, by omega⟩
      simp only at hge ⊢
      rw [Nat.add_mul, Nat.one_mul]; omega
    · rename_i hge
      refine ⟨hIs3, ?_, ?_, by omega⟩
      · simp only; omega
      · simp only at hge ⊢; omega

/-- The goal computation of a seek. -/
theorem seekTarget_spec {F : Prop} {dev : BlockDev W D} {G : W → Prop} {Is : D → Disk → Prop}
    (hd : DevSpec F dev G Is) {k : Disk} {w : W} {r : Reader D} {pos : Nat} (hG : G w)
    (hr : At Is k r pos) (t : SeekFrom) (ht : ∀ p, t = .start p → p < U64) :
    ∃ w', G w' ∧
      ((F ∧ ∃ e, seekTarget dev t (w, r) = ((w', r), .err e)) ∨
       (¬ (0 ≤ seekGoal k.content pos t ∧ seekGoal k.content pos t < (U64 : Int)) ∧
          seekTarget dev t (w, r) = ((w', r), .err .invalidInput)) ∨
       (∃ q : Nat, seekGoal k.content pos t = q ∧ q < U64 ∧
          seekTarget dev t (w, r) = ((w', r), .ok q))) := by
  have hw := hd.wf hr.is
  have hsigned : ∀ (a : Nat) (off : Int) (s : W × Reader D),
      (¬ (0 ≤ (a : Int) + off ∧ (a : Int) + off < (U64 : Int)) ∧
        (SM.lift (Res.ofOption .invalidInput (checkedAddSigned64 a off)) : SM _ _) s =
          (s, .err .invalidInput)) ∨
      (∃ q : Nat, (a : Int) + off = q ∧ q < U64 ∧
        (SM.lift (Res.ofOption .invalidInput (checkedAddSigned64 a off)) : SM _ _) s =
          (s, .ok q)) := by
    intro a off s
    unfold checkedAddSigned64
    by_cases h : 0 ≤ (a : Int) + off ∧ (a : Int) + off < (U64 : Int)
    · right
      refine ⟨((a : Int) + off).toNat, by omega, by omega, ?_⟩
      rw [if_pos h]; rfl
    · left
      refine ⟨h, ?_⟩
      rw [if_neg h]; rfl
  cases t with
  | start p =>
    exact ⟨w, hG, .inr (.inr ⟨p, rfl, ht p rfl, rfl⟩)⟩
  | fromEnd off =>
    unfold seekTarget
    simp only
    obtain ⟨hG1, hcnt⟩ := hd.blockCount hG hr.is
    rcases hbc : dev.blockCount r.device w with ⟨w1, x1⟩
    rw [hbc] at hG1 hcnt
    simp only at hG1 hcnt
    have hon1 : onWorld dev.blockCount (w, r) = ((w1, r), x1) := by simp only [onWorld, hbc]
    rcases hcnt with rfl | ⟨hF, e, rfl⟩
    rotate_left
    · exact ⟨w1, hG1, .inl ⟨hF, e, SM.bind_err (h := hon1) _⟩⟩
    rw [SM.bind_ok (h := hon1)]
    obtain ⟨hG2, hbs⟩ := hd.blockSize hG1 hr.is
    rcases hbc2 : dev.blockSize r.device w1 with ⟨w2, x2⟩
    rw [hbc2] at hG2 hbs
    simp only at hG2 hbs
    have hon2 : onWorld dev.blockSize (w1, r) = ((w2, r), x2) := by simp only [onWorld, hbc2]
    rcases hbs with rfl | ⟨hF, e, rfl⟩
    rotate_left
    · exact ⟨w2, hG2, .inl ⟨hF, e, SM.bind_err (h := hon2) _⟩⟩
    rw [SM.bind_ok (h := hon2)]
    rw [SM.bind_ok (a := k.n * k.bs) (s' := (w2, r))
      (h := by rw [sizeBytes, checkedMul64_pos hw.size_lt]; rfl)]
    refine ⟨w2, hG2, .inr ?_⟩
    have := hsigned (k.n * k.bs) off (w2, r)
    simpa only [seekGoal, hw.len] using this
  | current off =>
    unfold seekTarget
    simp only
    rw [SM.bind_ok (h := SM.get_apply _)]
    simp only
    obtain ⟨hG2, hbs⟩ := hd.blockSize hG hr.is
    rcases hbc2 : dev.blockSize r.device w with ⟨w2, x2⟩
    rw [hbc2] at hG2 hbs
    simp only at hG2 hbs
    have hon2 : onWorld dev.blockSize (w, r) = ((w2, r), x2) := by simp only [onWorld, hbc2]
    rcases hbs with rfl | ⟨hF, e, rfl⟩
    rotate_left
    · exact ⟨w2, hG2, .inl ⟨hF, e, SM.bind_err (h := hon2) _⟩⟩
    rw [SM.bind_ok (h := hon2)]
    have hpe := hr.pos_eq
    have hpl := hr.pos_lt
    rw [SM.bind_ok (a := r.blockPos * k.bs) (s' := (w2, r))
      (h := by rw [MdRecover.bytePos, checkedMul64_pos (by omega)]; rfl)]
    rw [SM.bind_ok (a := pos) (s' := (w2, r))
      (h := by rw [checkedAdd64_pos (by omega), ← hpe]; rfl)]
    refine ⟨w2, hG2, .inr ?_⟩
    exact hsigned pos off (w2, r)

/-- What a seek does. -/
theorem seek_spec {F : Prop} {dev : BlockDev W D} {G : W → Prop} {Is : D → Disk → Prop}
    (hd : DevSpec F dev G Is) {k : Disk} {w : W} {r : Reader D} {pos : Nat} (hG : G w)
    (hr : At Is k r pos) (t : SeekFrom) (ht : ∀ p, t = .start p → p < U64) :
    ∃ w' r', G w' ∧
      ((F ∧ ∃ e, seek dev t (w, r) = ((w', r'), .err e) ∧ At Is k r' pos) ∨
       (¬ (0 ≤ seekGoal k.content pos t ∧ seekGoal k.content pos t < (U64 : Int)) ∧
          seek dev t (w, r) = ((w', r'), .err .invalidInput) ∧ At Is k r' pos) ∨
       (∃ q : Nat, seekGoal k.content pos t = q ∧ q < U64 ∧
          seek dev t (w, r) = ((w', r'), .ok q) ∧ At Is k r' q)) := by
  have hw := hd.wf hr.is
  unfold seek
  obtain ⟨w1, hG1, h⟩ := seekTarget_spec hd hG hr t ht
  rcases h with ⟨hF, e, h⟩ | ⟨hbad, h⟩ | ⟨q, hq, hql, h⟩
  · exact ⟨w1, r, hG1, .inl ⟨hF, e, SM.bind_err (h := h) _, hr⟩⟩
  · exact ⟨w1, r, hG1, .inr (.inl ⟨hbad, SM.bind_err (h := h) _, hr⟩)⟩
  rw [SM.bind_ok (h := h)]
  obtain ⟨hG2, hbs⟩ := hd.blockSize hG1 hr.is
  rcases hbc2 : dev.blockSize r.device w1 with ⟨w2, x2⟩
  rw [hbc2] at hG2 hbs
  simp only at hG2 hbs
  have hon2 : onWorld dev.blockSize (w1, r) = ((w2, r), x2) := by simp only [onWorld, hbc2]
  rcases hbs with rfl | ⟨hF, e, rfl⟩
  rotate_left
  · exact ⟨w2, r, hG2, .inl ⟨hF, e, SM.bind_err (h := hon2) _, hr⟩⟩
  rw [SM.bind_ok (h := hon2)]
  have hb := hw.bs_pos
  rw [SM.bind_ok (a := q / k.bs) (s' := (w2, r))
    (h := by rw [divP, if_neg (by omega)]; rfl)]
  rw [SM.bind_ok (h := SM.modify_apply _ _)]
  refine ⟨w2, _, hG2, .inr (.inr ⟨q, hq, hql, rfl, ?_⟩)⟩
  exact ⟨hr.is, (Nat.div_add_mod' q k.bs).symm, Nat.mod_lt _ hb, hql⟩

/-- Exact reads. -/
theorem readExactLoop_spec {F : Prop} {dev : BlockDev W D} {G : W → Prop} {Is : D → Disk → Prop}
    (hd : DevSpec F dev G Is) {k : Disk} :
    ∀ (fuel : Nat) {w : W} {r : Reader D} {pos : Nat} (buf : Bytes), G w → At Is k r pos →
      buf.length ≤ fuel →
      ∃ w' r' pos', G w' ∧ At Is k r' pos' ∧
        ((F ∧ ∃ e, readExactLoop (read dev) fuel buf (w, r) = ((w', r'), .err e)) ∨
         (k.content.length < pos + buf.length ∧ buf ≠ [] ∧
            readExactLoop (read dev) fuel buf (w, r) = ((w', r'), .err .unexpectedEof)) ∨
         ((buf = [] ∨ pos + buf.length ≤ k.content.length) ∧ pos' = pos + buf.length ∧
            readExactLoop (read dev) fuel buf (w, r) =
              ((w', r'), .ok ((k.content.drop pos).take buf.length))))
  | 0, w, r, pos, buf, hG, hr, hf => by
    have : buf = [] := List.eq_nil_of_length_eq_zero (by omega)
    subst this
    exact ⟨w, r, pos, hG, hr, .inr (.inr ⟨.inl rfl, by simp, by simp [readExactLoop]⟩)⟩
  | fuel + 1, w, r, pos, buf, hG, hr, hf => by
    rw [readExactLoop]
    by_cases hb : buf = []
    · subst hb
      exact ⟨w, r, pos, hG, hr, .inr (.inr ⟨.inl rfl, by simp, by simp⟩)⟩
    rw [if_neg hb]
    obtain ⟨w1, r1, hG1, h⟩ := read_spec hd hG hr buf
    rcases h with ⟨hF, e, h, hr1⟩ | ⟨j, buf', pos', h, hsr, hr1⟩
    · exact ⟨w1, r1, pos, hG1, hr1, .inl ⟨hF, e, SM.bind_err (h := h) _⟩⟩
    rw [SM.bind_ok (h := h)]
    simp only
    have hblen : 0 < buf.length := List.length_pos_iff.mpr hb
    have hle := hsr.le
    by_cases hj : j = 0
    · rw [if_pos hj]
      have := (hsr.zero hj).resolve_left hb
      refine ⟨w1, r1, pos', hG1, hr1, .inr (.inl ⟨by omega, hb, rfl⟩)⟩
    rw [if_neg hj]
    have hin := hsr.inside (by omega)
    have hl1 : ((k.content.drop pos).take j).length = j := by
      rw [List.length_take, List.length_drop]; omega
    have hbl : buf'.length = buf.length := by
      rw [hsr.data, List.length_append, hl1, List.length_drop]; omega
    rw [if_neg (by omega)]
    have hdrop : buf'.drop j = buf.drop j := by
      rw [hsr.data, List.drop_append, hl1, List.drop_eq_nil_of_le (by omega)]; simp
    have htake : buf'.take j = (k.content.drop pos).take j := by
      rw [hsr.data, List.take_append, hl1, List.take_of_length_le (by omega)]; simp
    rw [hdrop, htake]
    have hdl : (buf.drop j).length = buf.length - j := List.length_drop
    obtain ⟨w2, r2, pos2, hG2, hr2, h2⟩ := readExactLoop_spec hd fuel (buf.drop j) hG1 hr1
      (by omega)
    have hmv := hsr.moved
    rcases h2 with ⟨hF, e, h2⟩ | ⟨hlt, hne, h2⟩ | ⟨hok, hpos2, h2⟩
    · exact ⟨w2, r2, pos2, hG2, hr2, .inl ⟨hF, e, SM.bind_err (h := h2) _⟩⟩
    · exact ⟨w2, r2, pos2, hG2, hr2, .inr (.inl ⟨by omega, hb, SM.bind_err (h := h2) _⟩)⟩
    · refine ⟨w2, r2, pos2, hG2, hr2, .inr (.inr ⟨.inr ?_, by omega, ?_⟩)⟩
      · rcases hok with h0 | hok
        · have := congrArg List.length h0
          rw [hdl] at this
          simp at this
          omega
        · omega
      · rw [SM.bind_ok (h := h2), SM.pure_apply, hmv, hdl, ← List.drop_drop,
          ← List.take_add]
        congr 4; omega

theorem readExact_spec {F : Prop} {dev : BlockDev W D} {G : W → Prop} {Is : D → Disk → Prop}
    (hd : DevSpec F dev G Is) {k : Disk} {w : W} {r : Reader D} {pos : Nat} (buf : Bytes)
    (hG : G w) (hr : At Is k r pos) :
      ∃ w' r' pos', G w' ∧ At Is k r' pos' ∧
        ((F ∧ ∃ e, readExact (read dev) buf (w, r) = ((w', r'), .err e)) ∨
         (k.content.length < pos + buf.length ∧ buf ≠ [] ∧
            readExact (read dev) buf (w, r) = ((w', r'), .err .unexpectedEof)) ∨
         ((buf = [] ∨ pos + buf.length ≤ k.content.length) ∧ pos' = pos + buf.length ∧
            readExact (read dev) buf (w, r) =
              ((w', r'), .ok ((k.content.drop pos).take buf.length)))) :=
  readExactLoop_spec hd buf.length buf hG hr (Nat.le_refl _)

end Reader
end MdRecover
