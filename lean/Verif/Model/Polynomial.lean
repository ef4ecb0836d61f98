import Mathlib.Algebra.Field.Basic

/-!
# Legendre polynomials

Models `queso/utilities/polynomial_utilities.hpp` over an exact field `K` (no rounding).
-/
namespace QuESo.Poly
variable {K : Type _} [Field K]

/-- `power`, polynomial_utilities.hpp L29-36: the loop with the accumulator `result`. -/
def powerLoop (x : K) : Nat → K → K
  | 0, result => result
  | p + 1, result => powerLoop x p (result * x)

/-- `power`, polynomial_utilities.hpp L29-36. -/
def power (x : K) (p : Nat) : K := powerLoop x p 1

/-- `f_x`, polynomial_utilities.hpp L39-86: Legendre polynomial on `(a, b)`. -/
def fx (x : K) (order : Nat) (a b : K) : K :=
  match order with
  | 0 => 1
  | 1 => (2 * x - a - b) / (b - a)
  | 2 =>
    let t := (2 * x - a - b) / (b - a)
    1 / 2 * (3 * power t 2 - 1)
  | 3 =>
    let t := (2 * x - a - b) / (b - a)
    1 / 2 * (5 * power t 3 - 3 * t)
  | 4 =>
    let t := (2 * x - a - b) / (b - a)
    1 / 8 * (35 * power t 4 - 30 * power t 2 + 3)
  | 5 =>
    let t := (2 * x - a - b) / (b - a)
    1 / 8 * (63 * power t 5 - 70 * power t 3 + 15 * t)
  | 6 =>
    let t := (2 * x - a - b) / (b - a)
    1 / 16 * (231 * power t 6 - 315 * power t 4 + 105 * power t 2 - 5)
  | 7 =>
    let t := (2 * x - a - b) / (b - a)
    1 / 16 * (429 * power t 7 - 693 * power t 5 + 315 * power t 3 - 35 * t)
  | 8 =>
    let t := (2 * x - a - b) / (b - a)
    1 / 128 * (6435 * power t 8 - 12012 * power t 6 + 6930 * power t 4 - 1260 * power t 2 + 35)
  | _ => 0

/-- `f_x_int`, polynomial_utilities.hpp L90-131: the integral of the Legendre polynomial. -/
def fxInt (x : K) (order : Nat) (a b : K) : K :=
  match order with
  | 0 => x
  | 1 => -power (a + b - 2 * x) 2 / (4 * (a - b))
  | 2 => -x / 2 - power (a + b - 2 * x) 3 / (4 * power (a - b) 2)
  | 3 => 3 * power (a + b - 2 * x) 2 / (8 * (a - b)) - 5 * power (a + b - 2 * x) 4 / (16 * power (a - b) 3)
  | 4 => 3 * x / 8 + 5 * power (a + b - 2 * x) 3 / (8 * power (a - b) 2) - 7 * power (a + b - 2 * x) 5 / (16 * power (a - b) 4)
  | 5 => 35 * power (a + b - 2 * x) 4 / (32 * power (a - b) 3) - 15 * power (a + b - 2 * x) 2 / (32 * (a - b)) -
      21 * power (a + b - 2 * x) 6 / (32 * power (a - b) 5)
  | 6 => 63 * power (a + b - 2 * x) 5 / (32 * power (a - b) 4) - 35 * power (a + b - 2 * x) 3 / (32 * power (a - b) 2) - 5 * x / 16 -
      33 * power (a + b - 2 * x) 7 / (32 * power (a - b) 6)
  | 7 => 35 * power (a + b - 2 * x) 2 / (64 * (a - b)) - 315 * power (a + b - 2 * x) 4 / (128 * power (a - b) 3) +
      231 * power (a + b - 2 * x) 6 / (64 * power (a - b) 5) - 429 * power (a + b - 2 * x) 8 / (256 * power (a - b) 7)
  | 8 => 35 * x / 128 + 105 * power (a + b - 2 * x) 3 / (64 * power (a - b) 2) - 693 * power (a + b - 2 * x) 5 / (128 * power (a - b) 4) +
      429 * power (a + b - 2 * x) 7 / (64 * power (a - b) 6) - 715 * power (a + b - 2 * x) 9 / (256 * power (a - b) 8)
  | _ => 0

end QuESo.Poly
