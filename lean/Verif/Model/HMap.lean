import Verif.Model.Basic

/-! `std::collections::HashMap`/`HashSet`, as far as used in /repo.  A map is a list of entries with distinct
keys; the order of iteration of the real type is unspecified, so every iteration goes through an arbitrary
`IterOrder`. -/

namespace MdRecover

/-- `HashMap<K, V>` (Rust std). -/
abbrev HMap (K V : Type) := List (K × V)

/-- The unspecified order in which hash maps are iterated (Rust std, random hash keys): any rearrangement. -/
abbrev IterOrder := (α : Type) → List α → List α

/-- Iteration yields every entry exactly once (Rust std). -/
def IterOrder.Valid (ord : IterOrder) : Prop := ∀ α l, (ord α l).Perm l

namespace HMap
variable {K V : Type} [DecidableEq K]

/-- `HashMap::get` (Rust std). -/
def get (m : HMap K V) (k : K) : Option V := (m.find? fun e => e.1 = k).map (·.2)

/-- `HashMap::insert` (Rust std). -/
def insert (m : HMap K V) (k : K) (v : V) : HMap K V := (m.filter fun e => e.1 ≠ k) ++ [(k, v)]

/-- `collect::<HashMap<_, _>>()` (Rust std). -/
def ofList (l : List (K × V)) : HMap K V := l.foldl (fun m e => m.insert e.1 e.2) []

/-- The loop body of `from_multi_iter` (src/ext/multi_map.rs 11-20). -/
def push (m : HMap K (List V)) (e : K × V) : HMap K (List V) :=
  match m.get e.1 with
  | none => m.insert e.1 [e.2]
  | some vs => m.insert e.1 (vs ++ [e.2])

/-- `MultiMap::from_multi_iter` (src/ext/multi_map.rs 8-23). -/
def fromMultiIter (l : List (K × V)) : HMap K (List V) := l.foldl push []

end HMap
end MdRecover
