import Mathlib.Algebra.Order.Field.Basic
import Mathlib.Algebra.BigOperators.Group.List.Basic

/-!
# What a solver of non-negative least-squares problems has to give

A matrix is the list of its columns.
-/
namespace QuESo.NNLS
variable {K : Type _} [Field K] [LinearOrder K]

/-- An exact square root of the numbers that are not negative. -/
def IsSqrt (sqrt : K → K) : Prop := ∀ x, 0 ≤ x → 0 ≤ sqrt x ∧ sqrt x * sqrt x = x

/-- Entry `k` of `A x - b`. -/
def residualAt (A : List (List K)) (b x : List K) (k : Nat) : K :=
  (List.zipWith (fun w (col : List K) => w * col.getD k 0) x A).sum - b.getD k 0

/-- The sum of squares of `A x - b`. -/
def squares (A : List (List K)) (b x : List K) : K := ((List.range b.length).map fun k => residualAt A b x k ^ 2).sum

/-- `x` has one number for each column, and none is negative. -/
def Feasible (A : List (List K)) (x : List K) : Prop := x.length = A.length ∧ ∀ w ∈ x, 0 ≤ w

end QuESo.NNLS
