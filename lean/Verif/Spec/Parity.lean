import Verif.Spec.Layout

/-! Specification of P parity, independent of the model. -/

namespace MdSpec

/-- XOR of a list of bytes. -/
def xorBytes (l : List UInt8) : UInt8 := l.foldr (· ^^^ ·) 0

/-- The devices of a row that hold data chunks. -/
def dataDevices (row : List Role) : List Nat :=
  (List.range row.length).filter fun d =>
    match row[d]? with
    | some (.D _) => true
    | _ => false

/-- `store d s` is the content of sector `s` of device `d`.  At sector `sec`, whose stripe has roles
`row`, each of the 512 bytes of the P device is the XOR of the bytes of the data devices. -/
def PConsistent (row : List Role) (store : Nat → Nat → List UInt8) (sec : Nat) : Prop :=
  ∀ p, row[p]? = some Role.P → ∀ i, i < 512 →
    (store p sec).getD i 0 = xorBytes ((dataDevices row).map fun d => (store d sec).getD i 0)

end MdSpec
