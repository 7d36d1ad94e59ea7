import Verif.Spec.ArrayRead

/-! Members of an array that have been damaged. -/

namespace MdSpec
open MdRecover

/-- Sector `s` of member `d` is not what it was. -/
def SectorDamaged (good bad : Nat → Disk) (d s : Nat) : Prop := (bad d).sector s ≠ (good d).sector s

/-- The members `good` have become `bad`: in each sector of the data areas at most one of them has been
damaged, not always the same one; what is outside is arbitrary. -/
structure OneDamaged (n size : Nat) (good bad : Nat → Disk) : Prop where
  member_size : ∀ d, d < n → size * 512 ≤ (bad d).content.length
  one : ∀ s, s < size → ∀ d d', d < n → d' < n → SectorDamaged good bad d s → SectorDamaged good bad d' s →
    d = d'

/-- Sector `b` of the array is in a stripe where the damage, in the same sector of the members, is on a member
with data or P. -/
def Affected (L n c : Nat) (good bad : Nat → Disk) (b : Nat) : Prop :=
  ∃ row d role, raid6Row L n (b / c / (n - 2)) = some row ∧ row[d]? = some role ∧ role ≠ .Q ∧
    SectorDamaged good bad d (b / c / (n - 2) * c + b % c)

end MdSpec
