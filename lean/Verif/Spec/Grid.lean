import Verif.Model.Basic
import Verif.Model.GridIndexer

/-!
# Specification vocabulary for grids

Nothing here mentions the functions of the model (only its data types `V3`, `Partition`, `Dir`,
`Box`).
-/
namespace QuESo.Spec

/-- The cell `(x,y,z)` exists in a grid of `n.x × n.y × n.z` cells. -/
def InGrid (n v : V3 Nat) : Prop := v.x < n.x ∧ v.y < n.y ∧ v.z < n.z

/-- The cell lies in the partition (bounds inclusive). -/
def InPart (p : Partition) (v : V3 Nat) : Prop :=
  (p.first.x ≤ v.x ∧ v.x ≤ p.second.x) ∧ (p.first.y ≤ v.y ∧ v.y ≤ p.second.y) ∧
    (p.first.z ≤ v.z ∧ v.z ≤ p.second.z)

/-- The partition is a non-empty block of cells of the grid. -/
def ValidPart (n : V3 Nat) (p : Partition) : Prop :=
  (p.first.x ≤ p.second.x ∧ p.second.x < n.x) ∧ (p.first.y ≤ p.second.y ∧ p.second.y < n.y) ∧
    (p.first.z ≤ p.second.z ∧ p.second.z < n.z)

instance (n v : V3 Nat) : Decidable (InGrid n v) := by unfold InGrid; infer_instance
instance (p : Partition) (v : V3 Nat) : Decidable (InPart p v) := by unfold InPart; infer_instance
instance (n : V3 Nat) (p : Partition) : Decidable (ValidPart n p) := by
  unfold ValidPart; infer_instance

/-- `w` is the geometric neighbour of `v` in direction `d`: exactly one coordinate changes, by one. -/
def Neighbour (d : Dir) (v w : V3 Nat) : Prop :=
  match d with
  | .xf => w.x = v.x + 1 ∧ w.y = v.y ∧ w.z = v.z
  | .xb => v.x = w.x + 1 ∧ w.y = v.y ∧ w.z = v.z
  | .yf => w.y = v.y + 1 ∧ w.x = v.x ∧ w.z = v.z
  | .yb => v.y = w.y + 1 ∧ w.x = v.x ∧ w.z = v.z
  | .zf => w.z = v.z + 1 ∧ w.x = v.x ∧ w.y = v.y
  | .zb => v.z = w.z + 1 ∧ w.x = v.x ∧ w.y = v.y

instance (d : Dir) (v w : V3 Nat) : Decidable (Neighbour d v w) := by
  cases d <;> unfold Neighbour <;> infer_instance

/-- The opposite direction. -/
def Opposite (d e : Dir) : Prop :=
  ∀ v w : V3 Nat, Neighbour d v w ↔ Neighbour e w v

/-- The corner of the partition at which a walk in direction `d` starts. -/
def startCorner (p : Partition) (d : Dir) : V3 Nat :=
  match d with
  | .xf | .yf | .zf => p.first
  | .xb | .yb | .zb => p.second

end QuESo.Spec
