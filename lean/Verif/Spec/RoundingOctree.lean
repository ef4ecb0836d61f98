import Verif.Spec.Octree
import Mathlib.Algebra.Order.Field.Rat
import Mathlib.Algebra.Order.Group.Unbundled.Abs

/-!
# Specification vocabulary: accuracy of the leaves of the octree
-/
namespace QuESo.Spec

/-- The boxes `b` (machine) and `c` (exact) differ by at most `r` in each coordinate. -/
def CloseBox (r : V3 ℚ) (b c : Box ℚ) : Prop :=
  (|b.lower.x - c.lower.x| ≤ r.x ∧ |b.upper.x - c.upper.x| ≤ r.x) ∧ (|b.lower.y - c.lower.y| ≤ r.y ∧ |b.upper.y - c.upper.y| ≤ r.y) ∧ (|b.lower.z - c.lower.z| ≤ r.z ∧ |b.upper.z - c.upper.z| ≤ r.z)

/-- The allowed error at level `n`: `14 n eps (|lower| + |upper|)` in each direction. -/
def tolAt (eps : ℚ) (root : Box ℚ) (n : Nat) : V3 ℚ :=
  ⟨14 * n * eps * (|root.lower.x| + |root.upper.x|), 14 * n * eps * (|root.lower.y| + |root.upper.y|), 14 * n * eps * (|root.lower.z| + |root.upper.z|)⟩

end QuESo.Spec
