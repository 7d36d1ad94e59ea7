import Mathlib.Tactic.Ring
import Mathlib.Tactic.Linarith
import Mathlib.Algebra.Order.Ring.Abs
import Verif.Model.Wide

/- C51: wide values are assembled from halves without loss; long products never overflow. -/

namespace MdRecover

/-- C51: combining a low and a high half of `bits` bits gives `low + high * 2^bits`, a value of
`2 * bits` bits. -/
theorem C51_value (bits low high : Nat) (hl : low < 2 ^ bits) (hh : high < 2 ^ bits) :
    fromLowHigh bits low high = low + high * 2 ^ bits
      ∧ fromLowHigh bits low high < 2 ^ (2 * bits) := by
  have hp : 2 ^ (2 * bits) = 2 ^ bits * 2 ^ bits := by rw [← pow_add]; congr 1; omega
  have hb : high * 2 ^ bits < 2 ^ (2 * bits) := by
    rw [hp]; exact Nat.mul_lt_mul_of_pos_right hh (Nat.two_pow_pos bits)
  have he : fromLowHigh bits low high = low + high * 2 ^ bits := by
    unfold fromLowHigh
    rw [Nat.shiftLeft_eq, Nat.mod_eq_of_lt hb, Nat.or_comm, Nat.mul_comm,
      ← Nat.two_pow_add_eq_or_of_lt hl]
    ring
  refine ⟨he, ?_⟩
  rw [he, hp]
  nlinarith

/-- C51: different pairs of halves give different wide values. -/
theorem C51_injective (bits low high low' high' : Nat) (hl : low < 2 ^ bits)
    (hh : high < 2 ^ bits) (hl' : low' < 2 ^ bits) (hh' : high' < 2 ^ bits)
    (h : fromLowHigh bits low high = fromLowHigh bits low' high') :
    low = low' ∧ high = high' := by
  rw [(C51_value bits low high hl hh).1, (C51_value bits low' high' hl' hh').1] at h
  have h1 : (low + high * 2 ^ bits) % 2 ^ bits = (low' + high' * 2 ^ bits) % 2 ^ bits := by rw [h]
  have h2 : (low + high * 2 ^ bits) / 2 ^ bits = (low' + high' * 2 ^ bits) / 2 ^ bits := by rw [h]
  rw [Nat.add_mul_mod_self_right, Nat.add_mul_mod_self_right, Nat.mod_eq_of_lt hl,
    Nat.mod_eq_of_lt hl'] at h1
  rw [Nat.add_mul_div_right _ _ (Nat.two_pow_pos bits),
    Nat.add_mul_div_right _ _ (Nat.two_pow_pos bits), Nat.div_eq_of_lt hl,
    Nat.div_eq_of_lt hl'] at h2
  omega

/-- C51: every wide value is the combination of its two halves. -/
theorem C51_surjective (bits v : Nat) (hv : v < 2 ^ (2 * bits)) :
    ∃ low high, low < 2 ^ bits ∧ high < 2 ^ bits ∧ fromLowHigh bits low high = v := by
  have hp : 2 ^ (2 * bits) = 2 ^ bits * 2 ^ bits := by rw [← pow_add]; congr 1; omega
  have hl : v % 2 ^ bits < 2 ^ bits := Nat.mod_lt _ (Nat.two_pow_pos bits)
  have hh : v / 2 ^ bits < 2 ^ bits := by
    rw [Nat.div_lt_iff_lt_mul (Nat.two_pow_pos bits), ← hp]; exact hv
  refine ⟨_, _, hl, hh, ?_⟩
  rw [(C51_value bits _ _ hl hh).1]
  exact Nat.mod_add_div' v (2 ^ bits)

/-- C51: a long product of two unsigned values of `bits` bits is the exact product; it never
overflows. -/
theorem C51_long_mul (bits a b : Nat) (ha : a < 2 ^ bits) (hb : b < 2 ^ bits) :
    longMul bits a b = .ok (a * b) := by
  have hp : 2 ^ (2 * bits) = 2 ^ bits * 2 ^ bits := by rw [← pow_add]; congr 1; omega
  unfold longMul
  rw [if_pos]
  rw [hp]
  exact Nat.mul_lt_mul'' ha hb

/-- C51: likewise for signed values, the two most negative ones included. -/
theorem C51_long_mul_signed (bits : Nat) (hbits : 0 < bits) (a b : Int)
    (ha : -(2 : Int) ^ (bits - 1) ≤ a ∧ a < (2 : Int) ^ (bits - 1))
    (hb : -(2 : Int) ^ (bits - 1) ≤ b ∧ b < (2 : Int) ^ (bits - 1)) :
    longMulSigned bits a b = .ok (a * b) := by
  obtain ⟨n, rfl⟩ : ∃ n, bits = n + 1 := ⟨bits - 1, by omega⟩
  simp only [Nat.add_sub_cancel] at ha hb
  have hq : (2 : Int) ^ (2 * (n + 1) - 1) = 2 * ((2 : Int) ^ n * (2 : Int) ^ n) := by
    rw [show 2 * (n + 1) - 1 = n + n + 1 by omega, pow_succ, pow_add]; ring
  have hn : (0 : Int) < (2 : Int) ^ n := by positivity
  have habs : |a * b| ≤ (2 : Int) ^ n * (2 : Int) ^ n := by
    rw [abs_mul]
    exact mul_le_mul (abs_le.2 ⟨ha.1, ha.2.le⟩) (abs_le.2 ⟨hb.1, hb.2.le⟩) (abs_nonneg _) hn.le
  have h2 := abs_le.1 habs
  have hpos : (0 : Int) < (2 : Int) ^ n * (2 : Int) ^ n := mul_pos hn hn
  unfold longMulSigned
  rw [hq, if_pos]
  exact ⟨by linarith [h2.1], by linarith [h2.2]⟩

/-- C51: a time given by 32 low and 8 high bits is `low + high * 2^32` seconds after the epoch;
the conversion never panics. -/
theorem C51_system_time (low high : Nat) (hl : low < 2 ^ 32) (hh : high < 2 ^ 8) :
    systemTimeFromLowHigh low high = .ok (low + high * 2 ^ 32) := by
  have h := (C51_value 32 low high hl (by omega)).1
  unfold systemTimeFromLowHigh
  rw [h, if_pos]
  omega

/-- The halves of the repository's own test, src/ext/wide_unsigned.rs 37-43. -/
example : fromLowHigh 32 0x12345678 0x9abcdef0 = 0x9abcdef012345678
    ∧ (0x12345678 : Nat) < 2 ^ 32 ∧ (0x9abcdef0 : Nat) < 2 ^ 32 := by decide +kernel
example : longMul 32 0xffffffff 0xffffffff = .ok 0xfffffffe00000001 :=
  C51_long_mul 32 _ _ (by decide) (by decide)
example : longMulSigned 8 (-128) (-128) = .ok 16384 :=
  C51_long_mul_signed 8 (by decide) _ _ (by decide) (by decide)
example : systemTimeFromLowHigh 5 255 = .ok 1095216660485 := C51_system_time 5 255 (by decide) (by decide)

end MdRecover
