import Verif.Model.MdDevice

/-! Specification of which device is which member, independent of the merging code: everything is said
about the column of values that the members' role tables hold for one role index. -/

namespace MdSpec
open MdRecover

/-- Values between the largest position 0xfeff and the journal 0xfffd have no meaning. -/
def invalidRole (r : MdRecover.Role) : Bool := decide (0xfeff < r.val) && decide (r.val < 0xfffd)

/-- Neither spare (0xffff) nor faulty (0xfffe) nor without meaning. -/
def opinion (r : MdRecover.Role) : Bool := !(r.val = 0xffff || r.val = 0xfffe || invalidRole r)

/-- What the tables say about role index `i`, in the order of the tables; shorter tables say nothing. -/
def column (tables : List (List MdRecover.Role)) (i : Nat) : List MdRecover.Role :=
  tables.filterMap fun t => t[i]?

/-- Two different opinions, before any invalid value. -/
def Conflict (col : List MdRecover.Role) : Prop :=
  ∃ a ∈ col.takeWhile (fun r => !invalidRole r), ∃ b ∈ col.takeWhile (fun r => !invalidRole r),
    opinion a ∧ opinion b ∧ a ≠ b

/-- The last invalid value, else the first opinion, else the last value. -/
def mergedValue (col : List MdRecover.Role) : Option MdRecover.Role :=
  ((col.filter invalidRole).getLast?).or
    (((col.filter opinion).head?).or col.getLast?)

/-- Every device has a superblock, and these are their role tables. -/
def Tables {D : Type} (devices : List (MdDevice D)) (tables : List (List MdRecover.Role)) : Prop :=
  devices.map (fun d => d.superblock.asOption.map (·.deviceRoles)) = tables.map some

/-- Device `x`, one of `devices`, claims to be member number `n`. -/
def Claims {D : Type} (devices : List (MdDevice D)) (x : MdDevice D) (n : Nat) : Prop :=
  ∃ tables s, Tables devices tables ∧ (∀ i, ¬ Conflict (column tables i)) ∧
    x.superblock = .superblock s ∧
    mergedValue (column tables s.deviceRoleIndex) = some ⟨n⟩ ∧ n ≤ 0xfeff

/-- All devices have superblocks, and there is at least one device. -/
def AllHave {D : Type} (devices : List (MdDevice D)) (p : Superblock → Prop) : Prop :=
  devices ≠ [] ∧ ∀ d ∈ devices, ∃ s, d.superblock = .superblock s ∧ p s

end MdSpec
