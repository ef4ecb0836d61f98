import Verif.Spec.Clip
import Mathlib.Algebra.Order.Ring.Rat
import Mathlib.Algebra.Field.Rat

/-!
# Specification: separation along a direction
-/
namespace QuESo.Spec

/-- The vector product. -/
def vectorProduct (a b : V3 ℚ) : V3 ℚ := ⟨a.y * b.z - a.z * b.y, a.z * b.x - a.x * b.z, a.x * b.y - a.y * b.x⟩

/-- Along the direction `n` (not normalised) all points of the box shrunk by `tol` lie by more than `m` before all corners of the triangle. -/
def SeparatedBy (lower upper : V3 ℚ) (tol : ℚ) (v0 v1 v2 n : V3 ℚ) (m : ℚ) : Prop :=
  ∀ q, InBoxTol lower upper (-tol) q → ∀ v ∈ [v0, v1, v2], n.x * q.x + n.y * q.y + n.z * q.z + m < n.x * v.x + n.y * v.y + n.z * v.z

end QuESo.Spec
