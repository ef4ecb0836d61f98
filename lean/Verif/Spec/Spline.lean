import Mathlib.Analysis.Calculus.ContDiff.Basic
import Mathlib.Algebra.Polynomial.Eval.Degree
import Mathlib.MeasureTheory.Integral.IntervalIntegral.Basic

/-! # Specification vocabulary for one-dimensional quadrature -/
namespace QuESo.Spec

/-- The value of the rule (a list of positions and weights) for the function `f`. -/
noncomputable def quadSum (rule : List (ℚ × ℚ)) (f : ℝ → ℝ) : ℝ := (rule.map fun q => (q.2 : ℝ) * f q.1).sum

/-- `f` is a spline on the unit interval with `e` equal knot spans: a polynomial of degree at most `p` on every span,
with `r` continuous derivatives on the interval. -/
def IsSpline (p r e : ℕ) (f : ℝ → ℝ) : Prop :=
  ContDiffOn ℝ r f (Set.Icc 0 1) ∧
    ∀ k < e, ∃ s : Polynomial ℝ, s.natDegree ≤ p ∧
      ∀ x ∈ Set.Icc ((k : ℝ) / e) (((k : ℝ) + 1) / e), f x = s.eval x

/-- The rule integrates the function over the unit interval with error at most `err`. -/
def IntegratesUpTo (err : ℝ) (rule : List (ℚ × ℚ)) (f : ℝ → ℝ) : Prop :=
  |quadSum rule f - ∫ x in (0 : ℝ)..1, f x| ≤ err

/-- The positions of the rule are inside the unit interval and increase strictly, and the weights are positive. -/
def Proper (rule : List (ℚ × ℚ)) : Prop :=
  (∀ q ∈ rule, 0 < q.1 ∧ q.1 < 1 ∧ 0 < q.2) ∧ rule.Pairwise (fun a b => a.1 < b.1)

/-- `g` is a polynomial of degree at most `d`. -/
def IsPoly (d : ℕ) (g : ℝ → ℝ) : Prop := ∃ q : Polynomial ℝ, q.natDegree ≤ d ∧ ∀ x, g x = q.eval x

/-- `f` is continuous and a polynomial of degree at most `dx`, `dy`, `dz` in each of its three variables (for instance
any polynomial in three variables with these degrees). -/
structure TriPoly (dx dy dz : ℕ) (f : ℝ → ℝ → ℝ → ℝ) : Prop where
  px : ∀ y z, IsPoly dx (fun x => f x y z)
  py : ∀ x z, IsPoly dy (fun y => f x y z)
  pz : ∀ x y, IsPoly dz (fun z => f x y z)
  cont : Continuous fun q : ℝ × ℝ × ℝ => f q.1 q.2.1 q.2.2

end QuESo.Spec
