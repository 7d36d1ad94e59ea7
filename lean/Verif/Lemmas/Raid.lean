import Verif.Model.Algorithm
import Verif.Lemmas.Basic
import Verif.Spec.Layout
import Mathlib.Tactic.Ring

namespace MdRecover
open MdSpec

/-- The sector-in-device never exceeds the logical sector. -/
theorem sectorInDevice_le (sector c m : Nat) :
    sector / c / m * c + sector % c ≤ sector := by
  have h1 : sector / c / m * c ≤ sector / c * c :=
    Nat.mul_le_mul_right _ (Nat.div_le_self _ _)
  have h2 := Nat.div_add_mod sector c
  rw [Nat.mul_comm] at h2
  omega

theorem inChunk_pos {sector c : Nat} (hc : 0 < c) :
    inChunk sector c = some (sector / c, sector % c) := by
  simp [inChunk, checkedDiv_pos (Nat.ne_of_gt hc), checkedRem_pos (Nat.ne_of_gt hc)]

theorem inChunk_zero {sector : Nat} : inChunk sector 0 = none := rfl

theorem dataDeviceAndStripe_pos {chunk m : Nat} (hm : 0 < m) (hm' : m ≤ U32) :
    dataDeviceAndStripe chunk m = some (chunk % m, chunk / m) := by
  have : chunk % m < m := Nat.mod_lt _ hm
  rw [dataDeviceAndStripe, checkedRem_pos (by omega), checkedDiv_pos (by omega)]
  simp only [Option.bind_eq_bind, Option.bind_some]
  rw [toU32_pos (by omega)]; rfl

theorem dataDeviceAndStripe_zero {chunk : Nat} : dataDeviceAndStripe chunk 0 = none := rfl

namespace Raid5Algorithm

/-- Closed form of the parity device. -/
def parityOf (alg : Raid5Algorithm) (n s : Nat) : Nat :=
  match alg with
  | leftAsymmetric | leftSymmetric => n - 1 - s % n
  | rightAsymmetric | rightSymmetric => s % n
  | parity0 => 0
  | parityN => n - 1

/-- Closed form of the data device. -/
def dataOf (alg : Raid5Algorithm) (n s i : Nat) : Nat :=
  match alg with
  | leftAsymmetric | rightAsymmetric => i + (if i ≥ parityOf alg n s then 1 else 0)
  | leftSymmetric | rightSymmetric => (parityOf alg n s + 1 + i) % n
  | parity0 => i + 1
  | parityN => i

theorem parity64_closed (alg : Raid5Algorithm) {n s : Nat} (hn : 2 ≤ n) :
    alg.parity64 n (n - 1) s = some (alg.parityOf n s) := by
  have hr : s % n < n := Nat.mod_lt _ (by omega)
  cases alg <;>
    simp (disch := omega) only [parity64, parityOf, checkedRem_pos, checkedSub_pos,
      Option.bind_eq_bind, Option.bind_some]

theorem data64_closed (alg : Raid5Algorithm) {n s i : Nat} (hn : 2 ≤ n) (hn' : n < U32)
    (hi : i < n - 1) (hp : alg.parityOf n s < n) :
    alg.data64 n i (alg.parityOf n s) = some (alg.dataOf n s i) := by
  cases alg
  case leftAsymmetric =>
    exact checkedAdd64_pos (by split <;> omega)
  case rightAsymmetric =>
    exact checkedAdd64_pos (by split <;> omega)
  case parityN => rfl
  all_goals
    simp only [data64, dataOf]
    generalize parityOf _ n s = p at *
    simp (disch := omega) only [checkedRem_pos, checkedAdd64_pos,
      Option.bind_eq_bind, Option.bind_some]

theorem parityOf_lt (alg : Raid5Algorithm) {n s : Nat} (hn : 2 ≤ n) : alg.parityOf n s < n := by
  have hr : s % n < n := Nat.mod_lt _ (by omega)
  cases alg <;> simp only [parityOf] <;> omega

theorem dataOf_lt (alg : Raid5Algorithm) {n s i : Nat} (hn : 2 ≤ n) (hi : i < n - 1) :
    alg.dataOf n s i < n := by
  have hlt : ∀ x : Nat, x % n < n := fun x => Nat.mod_lt _ (by omega)
  cases alg <;> simp only [dataOf]
  case leftAsymmetric => split <;> omega
  case rightAsymmetric => split <;> omega
  case parity0 => omega
  case parityN => omega
  all_goals exact hlt _

theorem computeSector_closed (alg : Raid5Algorithm) {sector c n : Nat}
    (hs : sector < U64) (hc : 0 < c) (hn : 2 ≤ n) (hn' : n < U32) :
    alg.computeSector sector c n =
      some (sector / c / (n - 1) * c + sector % c,
        alg.parityOf n (sector / c / (n - 1)),
        alg.dataOf n (sector / c / (n - 1)) (sector / c % (n - 1))) := by
  have hi : sector / c % (n - 1) < n - 1 := Nat.mod_lt _ (by omega)
  have hmul := sectorInDevice_le sector c (n - 1)
  rw [computeSector, inChunk_pos hc, checkedSub_pos (by omega)]
  simp only [Option.bind_eq_bind, Option.bind_some]
  rw [dataDeviceAndStripe_pos (by omega) (by omega)]
  simp only [Option.bind_some]
  have hp := parityOf_lt alg (s := sector / c / (n - 1)) hn
  have hd := dataOf_lt alg (s := sector / c / (n - 1)) hn hi
  rw [parity64_closed alg hn]
  simp only [Option.bind_some]
  rw [toU32_pos (by omega)]
  simp only [Option.bind_some]
  rw [data64_closed alg hn hn' hi hp]
  simp only [Option.bind_some]
  rw [toU32_pos (by omega), checkedMul64_pos (by omega)]
  simp only [Option.bind_some]
  rw [checkedAdd64_pos (by omega)]
  rfl

end Raid5Algorithm
end MdRecover
