import Mathlib.Data.List.Rotate

/-!
Specification of the md RAID5/RAID6 on-disk layouts, as pictures of one stripe: the list of the roles of
devices 0, 1, ..., n-1.  Keyed by the layout number stored on disk.  Written from the md format
(drivers/md/raid5.h), independently of the model.
-/

namespace MdSpec

/-- Role of a device in a stripe: P parity, Q parity, or the i-th data chunk of the stripe. -/
inductive Role where
  | P
  | Q
  | D (i : Nat)
  deriving DecidableEq, Repr

/-- The `k` data chunks in order. -/
def dataRoles (k : Nat) : List Role := (List.range k).map Role.D

/-- The row of stripe `s` of a RAID5 array of `n` devices. -/
def raid5Row (layout n s : Nat) : Option (List Role) :=
  let ds := dataRoles (n - 1)
  match layout with
  -- left asymmetric: P on the last device, moving left; data in device order
  | 0 => some (ds.insertIdx (n - 1 - s % n) Role.P)
  -- right asymmetric: P on the first device, moving right; data in device order
  | 1 => some (ds.insertIdx (s % n) Role.P)
  -- left symmetric: `D0 D1 .. P`, each stripe rotated one more to the left
  | 2 => some ((Role.P :: ds).rotate (s + 1))
  -- right symmetric: `P D0 D1 ..`, each stripe rotated one more to the right
  | 3 => some ((Role.P :: ds).rotate (n - s % n))
  -- P always first
  | 4 => some (Role.P :: ds)
  -- P always last
  | 5 => some (ds ++ [Role.P])
  | _ => none

/-- Row in which P is device `p`, Q the next device cyclically, data in device order. -/
def pqRow (n p : Nat) : List Role :=
  let ds := dataRoles (n - 2)
  if p = n - 1 then Role.Q :: ds ++ [Role.P]
  else ds.take p ++ [Role.P, Role.Q] ++ ds.drop p

/-- The row of stripe `s` of a RAID6 array of `n` devices. -/
def raid6Row (layout n s : Nat) : Option (List Role) :=
  let ds := dataRoles (n - 2)
  match layout with
  | 0 => some (pqRow n (n - 1 - s % n))
  | 1 => some (pqRow n (s % n))
  -- `Q D0 D1 .. P`, rotated left
  | 2 => some ((Role.P :: Role.Q :: ds).rotate (s + 1))
  -- `P Q D0 D1 ..`, rotated right
  | 3 => some ((Role.P :: Role.Q :: ds).rotate (n - s % n))
  | 4 => some (Role.P :: Role.Q :: ds)
  | 5 => some (ds ++ [Role.P, Role.Q])
  -- DDF layouts
  | 8 => some (pqRow n (s % n))
  | 9 => some (pqRow n (n - 1 - (s + 1) % n))
  -- Q before P: `D0 D1 .. Q P`, rotated left
  | 10 => some ((Role.P :: ds ++ [Role.Q]).rotate (s + 1))
  -- RAID5 on the first n-1 devices, Q on the last
  | 16 => (raid5Row 0 (n - 1) s).map (· ++ [Role.Q])
  | 17 => (raid5Row 1 (n - 1) s).map (· ++ [Role.Q])
  | 18 => (raid5Row 2 (n - 1) s).map (· ++ [Role.Q])
  | 19 => (raid5Row 3 (n - 1) s).map (· ++ [Role.Q])
  | 20 => (raid5Row 4 (n - 1) s).map (· ++ [Role.Q])
  | _ => none

end MdSpec
