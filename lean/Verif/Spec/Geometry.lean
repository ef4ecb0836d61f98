import Verif.Model.Basic
import Mathlib.Algebra.Order.Field.Basic

/-!
# Specification vocabulary for points and boxes
-/
namespace QuESo.Spec
variable {K : Type _} [Field K] [LinearOrder K]

/-- The point lies in the closed box. -/
def InBox (b : Box K) (p : V3 K) : Prop :=
  (b.lower.x ≤ p.x ∧ p.x ≤ b.upper.x) ∧ (b.lower.y ≤ p.y ∧ p.y ≤ b.upper.y) ∧
    (b.lower.z ≤ p.z ∧ p.z ≤ b.upper.z)

/-- The point lies in the half-open box (lower faces included, upper faces excluded). -/
def InBoxHalfOpen (b : Box K) (p : V3 K) : Prop :=
  (b.lower.x ≤ p.x ∧ p.x < b.upper.x) ∧ (b.lower.y ≤ p.y ∧ p.y < b.upper.y) ∧
    (b.lower.z ≤ p.z ∧ p.z < b.upper.z)

/-- The point lies in the interior of the box. -/
def InBoxInterior (b : Box K) (p : V3 K) : Prop :=
  (b.lower.x < p.x ∧ p.x < b.upper.x) ∧ (b.lower.y < p.y ∧ p.y < b.upper.y) ∧
    (b.lower.z < p.z ∧ p.z < b.upper.z)

/-- Lower corner strictly below the upper corner. -/
def ProperBox (b : Box K) : Prop :=
  b.lower.x < b.upper.x ∧ b.lower.y < b.upper.y ∧ b.lower.z < b.upper.z

/-- Volume of a box. -/
def boxVolume (b : Box K) : K :=
  (b.upper.x - b.lower.x) * (b.upper.y - b.lower.y) * (b.upper.z - b.lower.z)

end QuESo.Spec
