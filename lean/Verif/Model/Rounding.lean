import Verif.Model.GridIndexer
import Mathlib.Data.Int.Log
import Mathlib.Data.Rat.Floor
import Mathlib.Algebra.Order.Field.Rat

/-!
# Model of the boxes of the cells in floating-point arithmetic

`queso/containers/grid_indexer.hpp` L451-460.  The other modules compute with exact numbers; here every operation is rounded.
`rnd` is the rounding of the machine: the result of an operation is the rounded exact result.  `binary64` is the rounding of IEEE 754 double precision to nearest, ties to even.
Simplification: the exponent is not bounded (no overflow, no subnormal numbers).
-/
namespace QuESo.Round

section
variable {K : Type _} [Field K] [LinearOrder K]

/-- `delta`, grid_indexer.hpp L454-456. -/
def deltaR (rnd : K → K) (lo up : K) (n : Nat) : K := rnd (|rnd (up - lo)| / (n : K))

/-- `rLowerBound + MultElementWise(delta, x)`, grid_indexer.hpp L457-458, one component; `fused`: the compiler uses one instruction for the product and the sum, which rounds once. -/
def faceR (rnd : K → K) (fused : Bool) (lo up : K) (n : Nat) (x : K) : K :=
  if fused then rnd (lo + deltaR rnd lo up n * x) else rnd (lo + rnd (deltaR rnd lo up n * x))

/-- Lower and upper end of cell `i` in one direction, grid_indexer.hpp L452, L457-458: `static_cast<double>(i)` and `1.0 + static_cast<double>(i)`. -/
def lowerR (rnd : K → K) (fused : Bool) (lo up : K) (n i : Nat) : K := faceR rnd fused lo up n (rnd (i : K))
def upperR (rnd : K → K) (fused : Bool) (lo up : K) (n i : Nat) : K := faceR rnd fused lo up n (rnd (1 + rnd (i : K)))

/-- `GetBoundingBoxFromIndex`, grid_indexer.hpp L451-460. -/
def cellBoxR (rnd : K → K) (fused : Bool) (n : V3 Nat) (dom : Box K) (v : V3 Nat) : Box K :=
  { lower := ⟨lowerR rnd fused dom.lower.x dom.upper.x n.x v.x, lowerR rnd fused dom.lower.y dom.upper.y n.y v.y, lowerR rnd fused dom.lower.z dom.upper.z n.z v.z⟩
    upper := ⟨upperR rnd fused dom.lower.x dom.upper.x n.x v.x, upperR rnd fused dom.lower.y dom.upper.y n.y v.y, upperR rnd fused dom.lower.z dom.upper.z n.z v.z⟩ }

/-- `GetBoundingBoxXYZFromIndex(Index)`, grid_indexer.hpp L96-99. -/
def boxXYZR (rnd : K → K) (fused : Bool) (n : V3 Nat) (dom : Box K) (i : Nat) : Box K := cellBoxR rnd fused n dom (Grid.toMat n i)

end

/-- Nearest whole number, ties to even. -/
def halfEven (x : ℚ) : ℤ :=
  if x - ⌊x⌋ < 1 / 2 then ⌊x⌋ else if 1 / 2 < x - ⌊x⌋ then ⌊x⌋ + 1 else if ⌊x⌋ % 2 = 0 then ⌊x⌋ else ⌊x⌋ + 1

/-- Spacing of the numbers with 53 binary digits around `x > 0`. -/
def ulp (x : ℚ) : ℚ := (2 : ℚ) ^ (Int.log 2 x - 52)

/-- IEEE 754 double precision, to nearest. -/
def binary64 (x : ℚ) : ℚ :=
  if x = 0 then 0 else if 0 < x then halfEven (x / ulp x) * ulp x else -(halfEven (-x / ulp (-x)) * ulp (-x))

end QuESo.Round
