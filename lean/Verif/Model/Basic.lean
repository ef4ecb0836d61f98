/-!
# Basic containers shared by all model files
-/
namespace QuESo

/-- Three components.  Models `std::array<T,3>` as used for `Vector3i` (component type `Nat`, modelling
`std::size_t`) and for `Vector3d`/`PointType` (component type an ordered field),
`queso/includes/core_definitions.hpp` L34-36.  Simplification: the three array entries are named fields. -/
structure V3 (α : Type _) where
  x : α
  y : α
  z : α
  deriving DecidableEq, Repr, Inhabited

/-- The i-th component, `v[i]`, `std::array::operator[]` (`queso/includes/core_definitions.hpp` L34-36).
Simplification: every index above 1 reads the last component; all uses in the model pass 0, 1 or 2. -/
def V3.get {α} (v : V3 α) : Nat → α
  | 0 => v.x
  | 1 => v.y
  | _ => v.z

/-- `v[i] = a`. -/
def V3.set {α} (v : V3 α) (i : Nat) (a : α) : V3 α :=
  match i with
  | 0 => { v with x := a }
  | 1 => { v with y := a }
  | _ => { v with z := a }

/-- Models `BoundingBoxType` (`queso/includes/core_definitions.hpp`, `MakeBox`): a lower and an
upper corner. -/
structure Box (K : Type _) where
  lower : V3 K
  upper : V3 K
  deriving DecidableEq, Repr

/-- Models `PartitionBoxType` = pair of `Vector3i` (`queso/includes/core_definitions.hpp`):
inclusive index range of cells. -/
structure Partition where
  first : V3 Nat
  second : V3 Nat
  deriving DecidableEq, Repr

end QuESo
