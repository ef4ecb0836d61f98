import Verif.Model.Vector
import Mathlib.Algebra.BigOperators.Group.Finset.Basic
import Mathlib.Algebra.Order.Field.Basic

/-!
# B-splines

The definitions of textbooks: basis functions by the recursion of Cox and de Boor, curves and volumes.  The last interval of the
domain is closed.
-/
namespace QuESo.BSplineSpec
variable {K : Type _} [Field K] [LinearOrder K]

/-- Basis function `i` of degree `p` with knots `t` at `u`.  The domain ends at `e`.  Quotients `x / 0` are zero. -/
def basis (t : Nat → K) (e : K) : Nat → Nat → K → K
  | 0, i, u => if (t i ≤ u ∧ u < t (i + 1) ∧ u < e) ∨ (u = e ∧ t i < e ∧ t (i + 1) = e) then 1 else 0
  | p + 1, i, u => (u - t i) / (t (i + p + 1) - t i) * basis t e p i u +
      (t (i + p + 2) - u) / (t (i + p + 2) - t (i + 1)) * basis t e p (i + 1) u

/-- The knots as a function. -/
def knots (t : List K) : Nat → K := fun i => t.getD i 0

/-- Basis function `i` of degree `p` of a list of knots; the domain ends at the knot with index `length - p - 1`. -/
def basisOf (t : List K) (p i : Nat) (u : K) : K := basis (knots t) (knots t (t.length - p - 1)) p i u

/-- The curve with knots `t`, coefficients `c` and degree `p`. -/
def curve (t c : List K) (p : Nat) (u : K) : K := ∑ i ∈ Finset.range c.length, c.getD i 0 * basisOf t p i u

/-- The volume with three lists of knots, degrees and control points in a list in which the index of the first direction runs
fastest.  `n` are the numbers of control points in the three directions. -/
def volumeAt (tu tv tw : List K) (p : V3 Nat) (n : V3 Nat) (cps : List (V3 K)) (q : V3 K) : V3 K :=
  let f := fun (g : V3 K → K) => ∑ k ∈ Finset.range n.z, ∑ j ∈ Finset.range n.y, ∑ i ∈ Finset.range n.x,
    basisOf tu p.x i q.x * basisOf tv p.y j q.y * basisOf tw p.z k q.z * g (cps.getD ((k * n.y + j) * n.x + i) ⟨0, 0, 0⟩)
  ⟨f V3.x, f V3.y, f V3.z⟩

end QuESo.BSplineSpec
