import Mathlib.Algebra.CharP.Two
import Mathlib.Tactic.Ring
import Mathlib.Tactic.LinearCombination
import Mathlib.Tactic.ComputeDegree
import Mathlib.Data.List.Induction
import Verif.Model.Crc
import Verif.Spec.Crc

/- Facts about the ext4 checksum model: linearity, bit-serial form, polynomial form. -/

namespace MdRecover

open Polynomial MdSpec

/-! ### The register as a linear machine -/

/-- A bit in the lowest position of a register. -/
def bit0 (b : Bool) : BitVec 32 := if b then 1#32 else 0#32

theorem crcShift_xor (a b : BitVec 32) : crcShift (a ^^^ b) = crcShift a ^^^ crcShift b := by
  unfold crcShift
  rw [BitVec.getLsbD_xor, BitVec.ushiftRight_xor_distrib]
  cases a.getLsbD 0 <;> cases b.getLsbD 0 <;> simp
  · rw [BitVec.xor_assoc]
  · rw [BitVec.xor_assoc, BitVec.xor_assoc, BitVec.xor_comm (b >>> 1)]
  · rw [BitVec.xor_assoc, BitVec.xor_comm crcPoly, BitVec.xor_assoc,
      BitVec.xor_self, BitVec.xor_zero]

theorem crcShift_even (v : BitVec 32) (h : v.getLsbD 0 = false) : crcShift v = v >>> 1 := by
  unfold crcShift; rw [h]; rfl

/-- The bit-serial step. -/
def crcStep (c : BitVec 32) (b : Bool) : BitVec 32 :=
  if (c.getLsbD 0 != b) then (c >>> 1) ^^^ 0x82F63B78#32 else c >>> 1

theorem crcStep_eq (c : BitVec 32) (b : Bool) : crcStep c b = crcShift (c ^^^ bit0 b) := by
  rw [crcShift_xor]
  cases b <;> simp [crcStep, crcShift, bit0, crcPoly]
  cases c[0] <;> simp
  rw [BitVec.xor_assoc, BitVec.xor_self, BitVec.xor_zero]

/-- Eight steps of the register. -/
def crcShift8 (v : BitVec 32) : BitVec 32 :=
  crcShift (crcShift (crcShift (crcShift (crcShift (crcShift (crcShift (crcShift v)))))))

theorem crcShift8_xor (a b : BitVec 32) :
    crcShift8 (a ^^^ b) = crcShift8 a ^^^ crcShift8 b := by
  simp only [crcShift8, crcShift_xor]

theorem crcShift8_high (y : BitVec 32) : crcShift8 ((y >>> 8) <<< 8) = y >>> 8 := by
  unfold crcShift8
  have h : ∀ k : Nat, k < 8 → crcShift (((y >>> 8) <<< 8) >>> k) = ((y >>> 8) <<< 8) >>> (k + 1) := by
    intro k hk
    rw [crcShift_even, BitVec.shiftRight_add]
    rw [BitVec.getLsbD_ushiftRight, BitVec.getLsbD_shiftLeft]
    simp; omega
  have h0 := h 0 (by omega)
  rw [BitVec.ushiftRight_zero] at h0
  rw [h0, h 1 (by omega), h 2 (by omega), h 3 (by omega), h 4 (by omega), h 5 (by omega),
    h 6 (by omega), h 7 (by omega)]
  apply BitVec.eq_of_getLsbD_eq
  intro i hi
  simp only [BitVec.getLsbD_ushiftRight, BitVec.getLsbD_shiftLeft, Nat.reduceAdd]
  by_cases h : 8 + i < 32
  · simp [h]
  · simp [h]
    apply BitVec.getLsbD_of_ge; omega

theorem byte_bits (b : BitVec 8) :
    b.setWidth 32 = bit0 (b.getLsbD 0) ^^^ (bit0 (b.getLsbD 1) <<< 1)
      ^^^ (bit0 (b.getLsbD 2) <<< 2) ^^^ (bit0 (b.getLsbD 3) <<< 3)
      ^^^ (bit0 (b.getLsbD 4) <<< 4) ^^^ (bit0 (b.getLsbD 5) <<< 5)
      ^^^ (bit0 (b.getLsbD 6) <<< 6) ^^^ (bit0 (b.getLsbD 7) <<< 7) := by
  revert b; decide +kernel

theorem crcUpdate_eq (c : BitVec 32) (b : UInt8) :
    crcUpdate c b = crcShift8 (c ^^^ b.toBitVec.setWidth 32) := by
  have hsplit : ∀ x : BitVec 32, x = (x.setWidth 8).setWidth 32 ^^^ ((x >>> 8) <<< 8) := by
    intro x
    apply BitVec.eq_of_getLsbD_eq
    intro i hi
    simp only [BitVec.getLsbD_xor, BitVec.getLsbD_setWidth, BitVec.getLsbD_shiftLeft,
      BitVec.getLsbD_ushiftRight]
    by_cases h : i < 8
    · simp [h, hi]
    · have : 8 + (i - 8) = i := by omega
      simp [h, hi, this]
  have hhigh : (c ^^^ b.toBitVec.setWidth 32) >>> 8 = c >>> 8 := by
    ext i hi
    simp
  conv_rhs => rw [hsplit (c ^^^ b.toBitVec.setWidth 32), crcShift8_xor, crcShift8_high, hhigh]
  rfl

theorem crcUpdate_serial (c : BitVec 32) (b : UInt8) :
    crcUpdate c b
      = ((List.range 8).map fun i => b.toBitVec.getLsbD i).foldl crcStep c := by
  rw [crcUpdate_eq, byte_bits]
  have : (List.range 8) = [0, 1, 2, 3, 4, 5, 6, 7] := by decide
  rw [this]
  simp only [List.map, List.foldl, crcStep_eq]
  generalize b.toBitVec.getLsbD 0 = b0
  generalize b.toBitVec.getLsbD 1 = b1
  generalize b.toBitVec.getLsbD 2 = b2
  generalize b.toBitVec.getLsbD 3 = b3
  generalize b.toBitVec.getLsbD 4 = b4
  generalize b.toBitVec.getLsbD 5 = b5
  generalize b.toBitVec.getLsbD 6 = b6
  generalize b.toBitVec.getLsbD 7 = b7
  unfold crcShift8
  have s1 : ∀ b, crcShift (bit0 b <<< 1) = bit0 b := by decide +kernel
  have s2 : ∀ b, crcShift (bit0 b <<< 2) = bit0 b <<< 1 := by decide +kernel
  have s3 : ∀ b, crcShift (bit0 b <<< 3) = bit0 b <<< 2 := by decide +kernel
  have s4 : ∀ b, crcShift (bit0 b <<< 4) = bit0 b <<< 3 := by decide +kernel
  have s5 : ∀ b, crcShift (bit0 b <<< 5) = bit0 b <<< 4 := by decide +kernel
  have s6 : ∀ b, crcShift (bit0 b <<< 6) = bit0 b <<< 5 := by decide +kernel
  have s7 : ∀ b, crcShift (bit0 b <<< 7) = bit0 b <<< 6 := by decide +kernel
  simp only [crcShift_xor, s1, s2, s3, s4, s5, s6, s7, BitVec.xor_assoc]

theorem ext4Crc32c_serial (c : BitVec 32) (bytes : Bytes) :
    ext4Crc32c c bytes = crcBitSerial c (bitsOf bytes) := by
  have key : ∀ (l : Bytes) (c : BitVec 32), l.foldl crcUpdate c = (bitsOf l).foldl crcStep c := by
    intro l
    induction l with
    | nil => intro c; rfl
    | cons b rest ih =>
      intro c
      rw [List.foldl_cons, ih, crcUpdate_serial]
      simp only [bitsOf, List.flatMap_cons, List.foldl_append]
  exact key bytes c

/-! ### The polynomial view -/

theorem bitsPoly_append (l m : List Bool) :
    bitsPoly (l ++ m) = bitsPoly l * X ^ m.length + bitsPoly m := by
  induction l with
  | nil => simp [bitsPoly]
  | cons b rest ih =>
    simp only [List.cons_append, bitsPoly, ih, List.length_append, pow_add]
    ring

theorem bitsPoly_degree (l : List Bool) : (bitsPoly l).degree < l.length := by
  induction l with
  | nil => simp [bitsPoly]
  | cons b rest ih =>
    refine lt_of_le_of_lt (degree_add_le _ _) ?_
    rw [max_lt_iff]
    constructor
    · refine lt_of_le_of_lt (degree_C_mul_X_pow_le _ _) ?_
      simp only [List.length_cons]
      exact_mod_cast Nat.lt_succ_self _
    · refine ih.trans ?_
      simp only [List.length_cons]
      exact_mod_cast Nat.lt_succ_self _

theorem bitZ_xor (a b : Bool) : bitZ (a ^^ b) = bitZ a + bitZ b := by
  cases a <;> cases b <;> decide

theorem bitsPoly_zipWith : ∀ l m : List Bool, l.length = m.length →
    bitsPoly (List.zipWith (· ^^ ·) l m) = bitsPoly l + bitsPoly m
  | [], [], _ => by simp [bitsPoly]
  | a :: l, b :: m, h => by
    simp only [List.length_cons, Nat.add_right_cancel_iff] at h
    simp only [List.zipWith_cons_cons, bitsPoly, bitsPoly_zipWith l m h, bitZ_xor, C_add,
      List.length_zipWith, h, Nat.min_self]
    ring

theorem bitsPoly_eq_zero : ∀ l : List Bool, bitsPoly l = 0 → ∀ b ∈ l, b = false
  | [], _, _, hb => by cases hb
  | a :: l, h, b, hb => by
    have hc : coeff (bitsPoly (a :: l)) l.length = 0 := by rw [h]; simp
    rw [bitsPoly, coeff_add, coeff_C_mul_X_pow, if_pos rfl,
      coeff_eq_zero_of_degree_lt (bitsPoly_degree l), add_zero] at hc
    have ha : a = false := by
      cases a
      · rfl
      · simp [bitZ] at hc
    subst ha
    have hl : bitsPoly l = 0 := by simpa [bitsPoly, bitZ] using h
    rcases List.mem_cons.1 hb with rfl | hb
    · rfl
    · exact bitsPoly_eq_zero l hl b hb

theorem regBits_length (c : BitVec 32) : (regBits c).length = 32 := by simp [regBits]

theorem regBits_xor (a b : BitVec 32) :
    regBits (a ^^^ b) = List.zipWith (· ^^ ·) (regBits a) (regBits b) := by
  unfold regBits
  rw [List.zipWith_map, List.zipWith_self]
  simp

theorem regPoly_xor (a b : BitVec 32) :
    bitsPoly (regBits (a ^^^ b)) = bitsPoly (regBits a) + bitsPoly (regBits b) := by
  rw [regBits_xor, bitsPoly_zipWith _ _ (by simp [regBits_length])]

theorem regBits_cons (c : BitVec 32) :
    regBits c = c.getLsbD 0 :: (List.range 31).map fun i => c.getLsbD (i + 1) := by
  unfold regBits
  rw [List.range_succ_eq_map]
  simp only [List.map_cons, List.map_map]
  rfl

theorem regBits_shift (c : BitVec 32) :
    regBits (c >>> 1) = ((List.range 31).map fun i => c.getLsbD (i + 1)) ++ [false] := by
  unfold regBits
  rw [List.range_succ]
  simp only [List.map_append, List.map_cons, List.map_nil, BitVec.getLsbD_ushiftRight]
  simp [Nat.add_comm]

theorem two_zero : (2 : (ZMod 2)[X]) = 0 := CharTwo.two_eq_zero

theorem castagnoli_eq :
    castagnoli = X ^ 32 + bitsPoly (regBits 0x82F63B78#32) := by
  have h : regBits 0x82F63B78#32 =
      [false,false,false,true,true,true,true,false,true,true,false,true,true,true,false,false,
       false,true,true,false,true,true,true,true,false,true,false,false,false,false,false,true] := by
    decide +kernel
  rw [h]
  simp [bitsPoly, bitZ, castagnoli]
  ring

theorem castagnoli_monic : castagnoli.Monic := by
  rw [castagnoli_eq]
  apply monic_X_pow_add
  have := bitsPoly_degree (regBits 0x82F63B78#32)
  rwa [regBits_length] at this

theorem castagnoli_degree : castagnoli.degree = 32 := by
  rw [castagnoli_eq, degree_add_eq_left_of_degree_lt]
  · simp
  · have := bitsPoly_degree (regBits 0x82F63B78#32)
    rw [regBits_length] at this
    simpa using this

/-- One bit-serial step multiplies by `X`, adds the message bit at `X^32`, and subtracts a
multiple of the generator. -/
theorem regPoly_step (c : BitVec 32) (b : Bool) :
    bitsPoly (regBits c) * X + C (bitZ b) * X ^ 32
      = C (bitZ (c.getLsbD 0 ^^ b)) * castagnoli + bitsPoly (regBits (crcStep c b)) := by
  have hs : bitsPoly (regBits (c >>> 1))
      = bitsPoly ((List.range 31).map fun i => c.getLsbD (i + 1)) * X := by
    rw [regBits_shift, bitsPoly_append]; simp [bitsPoly, bitZ]
  have hc : bitsPoly (regBits c) = C (bitZ (c.getLsbD 0)) * X ^ 31
      + bitsPoly ((List.range 31).map fun i => c.getLsbD (i + 1)) := by
    rw [regBits_cons]; simp [bitsPoly]
  have hstep : bitsPoly (regBits (crcStep c b)) = bitsPoly (regBits (c >>> 1))
      + C (bitZ (c.getLsbD 0 ^^ b)) * bitsPoly (regBits 0x82F63B78#32) := by
    unfold crcStep
    cases h : c.getLsbD 0 <;> cases b <;> simp [bitZ, regPoly_xor]
  rw [hstep, hs, hc, castagnoli_eq, bitZ_xor, C_add]
  linear_combination (-(C (bitZ (c.getLsbD 0)) + C (bitZ b)) *
    bitsPoly (regBits 0x82F63B78#32)) * two_zero

theorem regPoly_fold : ∀ (bits : List Bool) (c : BitVec 32), ∃ q : (ZMod 2)[X],
    bitsPoly (regBits c) * X ^ bits.length + bitsPoly bits * X ^ 32
      = castagnoli * q + bitsPoly (regBits (bits.foldl crcStep c))
  | [], c => ⟨0, by simp [bitsPoly]⟩
  | b :: rest, c => by
    obtain ⟨q, hq⟩ := regPoly_fold rest (crcStep c b)
    refine ⟨C (bitZ (c.getLsbD 0 ^^ b)) * X ^ rest.length + q, ?_⟩
    have h := regPoly_step c b
    simp only [List.length_cons, bitsPoly, List.foldl_cons]
    linear_combination X ^ rest.length * h + hq

theorem bitsOf_length (bytes : Bytes) : (bitsOf bytes).length = 8 * bytes.length := by
  induction bytes with
  | nil => rfl
  | cons b rest ih =>
    simp only [bitsOf, List.flatMap_cons, List.length_append, List.length_map, List.length_range,
      List.length_cons] at ih ⊢
    omega

theorem ext4Crc32c_isCrc (initial : BitVec 32) (bytes : Bytes) :
    IsCrc32c initial bytes (ext4Crc32c initial bytes) := by
  obtain ⟨q, hq⟩ := regPoly_fold (bitsOf bytes) initial
  unfold IsCrc32c
  rw [← bitsOf_length, hq]
  have := (div_modByMonic_unique q (bitsPoly (regBits ((bitsOf bytes).foldl crcStep initial)))
    castagnoli_monic ⟨add_comm _ _, ?_⟩).2
  · rw [this, ext4Crc32c_serial]; rfl
  · have h := bitsPoly_degree (regBits ((bitsOf bytes).foldl crcStep initial))
    rw [regBits_length] at h
    rw [castagnoli_degree]; exact h

theorem bitsPoly_replicate_false (n : Nat) : bitsPoly (List.replicate n false) = 0 := by
  induction n with
  | zero => rfl
  | succ n ih => simp [List.replicate_succ, bitsPoly, ih, bitZ]

theorem regBits_inj {a b : BitVec 32} (h : regBits a = regBits b) : a = b := by
  apply BitVec.eq_of_getLsbD_eq
  intro i hi
  have := congrArg (fun l => l[i]?) h
  simp only [regBits, List.getElem?_map, List.getElem?_range hi, Option.map_some] at this
  exact Option.some.inj this

theorem zipWith_xor_false : ∀ l m : List Bool, l.length = m.length →
    (∀ b ∈ List.zipWith (· ^^ ·) l m, b = false) → l = m
  | [], [], _, _ => rfl
  | a :: l, b :: m, h, hz => by
    simp only [List.zipWith_cons_cons, List.mem_cons, forall_eq_or_imp] at hz
    rw [zipWith_xor_false l m (by simpa using h) hz.2]
    have := hz.1
    cases a <;> cases b <;> simp_all

theorem regPoly_inj {a b : BitVec 32} (h : bitsPoly (regBits a) = bitsPoly (regBits b)) :
    a = b := by
  apply regBits_inj
  apply zipWith_xor_false _ _ (by simp [regBits_length])
  apply bitsPoly_eq_zero
  rw [bitsPoly_zipWith _ _ (by simp [regBits_length]), h]
  linear_combination bitsPoly (regBits b) * two_zero

theorem castagnoli_coprime_X : IsCoprime castagnoli (X : (ZMod 2)[X]) := by
  refine ⟨1, -(X ^ 31 + X ^ 27 + X ^ 26 + X ^ 25 + X ^ 24 + X ^ 22 + X ^ 21 + X ^ 19 + X ^ 18
    + X ^ 17 + X ^ 13 + X ^ 12 + X ^ 10 + X ^ 9 + X ^ 8 + X ^ 7 + X ^ 5), ?_⟩
  unfold castagnoli
  ring

theorem crc_eq_dvd {initial : BitVec 32} {a b : Bytes} (hl : a.length = b.length)
    (h : ext4Crc32c initial a = ext4Crc32c initial b) :
    castagnoli ∣ bitsPoly (List.zipWith (· ^^ ·) (bitsOf a) (bitsOf b)) * X ^ 32 := by
  obtain ⟨q, hq⟩ := regPoly_fold (bitsOf a) initial
  obtain ⟨r, hr⟩ := regPoly_fold (bitsOf b) initial
  rw [ext4Crc32c_serial, ext4Crc32c_serial] at h
  have h' : (bitsOf a).foldl crcStep initial = (bitsOf b).foldl crcStep initial := h
  have hlen : (bitsOf a).length = (bitsOf b).length := by rw [bitsOf_length, bitsOf_length, hl]
  rw [h', hlen] at hq
  rw [bitsPoly_zipWith _ _ hlen]
  refine ⟨q - r, ?_⟩
  linear_combination hq - hr + bitsPoly (bitsOf b) * X ^ 32 * two_zero

theorem bitsOf_inj : ∀ {a b : Bytes}, bitsOf a = bitsOf b → a = b
  | [], [], _ => rfl
  | [], _ :: _, h => by
    have := congrArg List.length h; rw [bitsOf_length, bitsOf_length] at this; simp at this
  | _ :: _, [], h => by
    have := congrArg List.length h; rw [bitsOf_length, bitsOf_length] at this; simp at this
  | x :: a, y :: b, h => by
    simp only [bitsOf, List.flatMap_cons] at h
    obtain ⟨h1, h2⟩ := List.append_inj h (by simp)
    rw [bitsOf_inj (a := a) (b := b) h2]
    have : x.toBitVec = y.toBitVec := by
      apply BitVec.eq_of_getLsbD_eq
      intro i hi
      have := congrArg (fun l => l[i]?) h1
      simp only [List.getElem?_map, List.getElem?_range hi, Option.map_some] at this
      exact Option.some.inj this
    rw [UInt8.eq_of_toBitVec_eq this]

theorem burst_detected {k : Nat} {a b : Bytes} (hd : DifferInBurst k a b) (hne : a ≠ b)
    (initial : BitVec 32) : ext4Crc32c initial a ≠ ext4Crc32c initial b := by
  intro h
  obtain ⟨hl, hd⟩ := hd
  have hlen : (bitsOf a).length = (bitsOf b).length := by rw [bitsOf_length, bitsOf_length, hl]
  apply hne
  apply bitsOf_inj
  apply zipWith_xor_false _ _ hlen
  have hdvd := crc_eq_dvd hl h
  set d := List.zipWith (· ^^ ·) (bitsOf a) (bitsOf b) with hdd
  have hout : ∀ i, i < k ∨ k + 32 ≤ i → ∀ x, d[i]? = some x → x = false := by
    intro i hi x hx
    have := hd i hi
    rw [hdd, List.getElem?_zipWith, this] at hx
    cases hb : (bitsOf b)[i]? with
    | none => rw [hb] at hx; cases hx
    | some y => rw [hb] at hx; simp at hx; exact hx
  have hsplit : d = d.take k ++ ((d.drop k).take 32 ++ (d.drop k).drop 32) := by
    rw [List.take_append_drop, List.take_append_drop]
  have h1 : d.take k = List.replicate (d.take k).length false := by
    rw [List.eq_replicate_iff]
    refine ⟨rfl, fun x hx => ?_⟩
    obtain ⟨i, hi⟩ := List.mem_iff_getElem?.1 hx
    rw [List.getElem?_take] at hi
    split at hi
    · exact hout i (Or.inl ‹_›) x hi
    · cases hi
  have h3 : (d.drop k).drop 32 = List.replicate ((d.drop k).drop 32).length false := by
    rw [List.eq_replicate_iff]
    refine ⟨rfl, fun x hx => ?_⟩
    obtain ⟨i, hi⟩ := List.mem_iff_getElem?.1 hx
    rw [List.drop_drop, List.getElem?_drop] at hi
    exact hout _ (Or.inr (by omega)) x hi
  generalize hw : (d.drop k).take 32 = w at hsplit
  have hwl : w.length ≤ 32 := by rw [← hw]; simp
  have hp : bitsPoly d = bitsPoly w * X ^ ((d.drop k).drop 32).length := by
    conv_lhs => rw [hsplit, bitsPoly_append, bitsPoly_append, h1, h3]
    simp [bitsPoly_replicate_false]
  rw [hp, mul_assoc, ← pow_add] at hdvd
  have hw0 : castagnoli ∣ bitsPoly w :=
    (castagnoli_coprime_X.pow_right).dvd_of_dvd_mul_right hdvd
  have hz : bitsPoly w = 0 := by
    by_contra hne0
    have := degree_le_of_dvd hw0 hne0
    rw [castagnoli_degree] at this
    have h2 := bitsPoly_degree w
    have h4 : ((w.length : Nat) : WithBot ℕ) ≤ 32 := by exact_mod_cast hwl
    exact absurd (lt_of_lt_of_le h2 h4) (not_lt.2 this)
  apply bitsPoly_eq_zero
  rw [hp, hz, zero_mul]

end MdRecover
