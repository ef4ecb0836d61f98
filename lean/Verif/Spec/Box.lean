import Verif.Spec.Geometry

/-!
# Specification vocabulary for boxes and rays
-/
namespace QuESo.Spec
variable {K : Type _} [Field K] [LinearOrder K]

/-- The lower bounds do not exceed the upper bounds. -/
def Ordered (b : Box K) : Prop :=
  b.lower.x ≤ b.upper.x ∧ b.lower.y ≤ b.upper.y ∧ b.lower.z ≤ b.upper.z

/-- The point lies on the ray. -/
def OnRay (origin direction q : V3 K) : Prop :=
  ∃ t : K, 0 ≤ t ∧ q.x = origin.x + t * direction.x ∧ q.y = origin.y + t * direction.y ∧ q.z = origin.z + t * direction.z

/-- The first box lies inside the second. -/
def BoxLe (a b : Box K) : Prop := ∀ q, InBox a q → InBox b q

end QuESo.Spec
