import Verif.Spec.Grid

/-! # Specification vocabulary for blocks of cells -/
namespace QuESo.Spec

/-- The cell lies in the block that starts at cell `lo` and has `size.x × size.y × size.z` cells. -/
def InBlk (lo size v : V3 Nat) : Prop :=
  (lo.x ≤ v.x ∧ v.x < lo.x + size.x) ∧ (lo.y ≤ v.y ∧ v.y < lo.y + size.y) ∧
    (lo.z ≤ v.z ∧ v.z < lo.z + size.z)

/-- `id` is the number (counting from 1, x fastest) of the cell `v`. -/
def HasId (n v : V3 Nat) (id : Nat) : Prop := id = 1 + v.x + n.x * v.y + n.x * n.y * v.z

/-- The list of ids is exactly the (axis-parallel) block of cells with first cell `lo` and the given
size; the block lies in the grid; no id is listed twice. -/
def IsBlock (n lo size : V3 Nat) (elems : List Nat) : Prop :=
  (lo.x + size.x ≤ n.x ∧ lo.y + size.y ≤ n.y ∧ lo.z + size.z ≤ n.z) ∧ elems.Nodup ∧
    ∀ id, id ∈ elems ↔ ∃ v, InBlk lo size v ∧ HasId n v id

end QuESo.Spec
