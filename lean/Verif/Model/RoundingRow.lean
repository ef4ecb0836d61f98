import Verif.Model.Rounding

/-!
# Model of the weights of rows of elements in floating-point arithmetic
-/
namespace QuESo.Round

/-- `LinearFunction`, `queso/quadrature/multiple_elements.hpp` L315-325, with every operation rounded; `none` is the error "Value too low".  `fused`: the product and the difference of L319 are rounded
once. -/
def linearFunctionR (rnd : ℚ → ℚ) (fused : Bool) (zt : ℚ) (x num : Nat) : Option ℚ :=
  let center := rnd (rnd ((num - 1 : Nat) : ℚ) / 2)
  let delta := |rnd (center - rnd (x : ℚ))|
  let slope := rnd (rnd (9 / 10) / center)
  let factor := if fused then rnd (1 - slope * delta) else rnd (1 - rnd (slope * delta))
  let value := rnd (factor * rnd (num : ℚ))
  if value < zt then none else some value

end QuESo.Round
