import Verif.Model.Basic

namespace MdRecover

theorem checkedAdd64_pos {a b : Nat} (h : a + b < U64) : checkedAdd64 a b = some (a + b) := if_pos h
theorem checkedAdd64_neg {a b : Nat} (h : ¬ a + b < U64) : checkedAdd64 a b = none := if_neg h
theorem checkedAdd32_pos {a b : Nat} (h : a + b < U32) : checkedAdd32 a b = some (a + b) := if_pos h
theorem checkedMul64_pos {a b : Nat} (h : a * b < U64) : checkedMul64 a b = some (a * b) := if_pos h
theorem checkedMul64_neg {a b : Nat} (h : ¬ a * b < U64) : checkedMul64 a b = none := if_neg h
theorem checkedSub_pos {a b : Nat} (h : b ≤ a) : checkedSub a b = some (a - b) := if_pos h
theorem checkedSub_neg {a b : Nat} (h : ¬ b ≤ a) : checkedSub a b = none := if_neg h
theorem checkedDiv_pos {a b : Nat} (h : b ≠ 0) : checkedDiv a b = some (a / b) := if_neg h
theorem checkedRem_pos {a b : Nat} (h : b ≠ 0) : checkedRem a b = some (a % b) := if_neg h
theorem checkedDiv_zero {a : Nat} : checkedDiv a 0 = none := if_pos rfl
theorem checkedRem_zero {a : Nat} : checkedRem a 0 = none := if_pos rfl
theorem toU32_pos {a : Nat} (h : a < U32) : toU32 a = some a := if_pos h

theorem add32_pos [Build] {a b : Nat} (h : a + b < U32) : add32 a b = .ok (a + b) := if_pos h
theorem mul64_pos [Build] {a b : Nat} (h : a * b < U64) : mul64 a b = .ok (a * b) := if_pos h
theorem subP_pos {a b : Nat} (h : b ≤ a) : subP a b = .ok (a - b) := if_pos h
theorem divP_pos {a b : Nat} (h : b ≠ 0) : divP a b = .ok (a / b) := if_neg h

/-- A statement about all builds can be decided by looking at both. -/
instance {p : Build → Prop} [∀ b, Decidable (p b)] : Decidable (∀ b : Build, p b) :=
  decidable_of_iff (p ⟨true⟩ ∧ p ⟨false⟩)
    ⟨fun h b => match b with | ⟨true⟩ => h.1 | ⟨false⟩ => h.2, fun h => ⟨h _, h _⟩⟩

end MdRecover
