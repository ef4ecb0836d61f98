import Mathlib.Algebra.Order.Field.Basic

/-!
# Specification vocabulary: rounding
-/
namespace QuESo.Spec

/-- What is used of the arithmetic of a machine: rounding keeps the order, whole numbers up to `big` are represented exactly, rounded numbers are represented exactly, and the relative
error is at most `eps`. -/
structure IsRounding {K : Type _} [Field K] [LinearOrder K] (rnd : K → K) (eps : K) (big : Nat) : Prop where
  mono : ∀ x y, x ≤ y → rnd x ≤ rnd y
  whole : ∀ i : Nat, i ≤ big → rnd (i : K) = i
  twice : ∀ x, rnd (rnd x) = rnd x
  error : ∀ x, |rnd x - x| ≤ eps * |x|

end QuESo.Spec
