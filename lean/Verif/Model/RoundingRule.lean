import Verif.Model.Rounding
import Verif.Model.Rules

/-!
# Model of the integration points of a full cell in floating-point arithmetic

`queso/quadrature/single_element.hpp` L72-102 with every operation rounded, see `Model/Rounding.lean`.  The numbers of the tables are the decimals of the source, rounded.
-/
namespace QuESo.Round
open QuESo.Rules QuESo.Mapping

/-- The tables of `IntegrationPointFactory1D`, as stored by the compiler (integration_points_factory_1d.cpp L125-137, `tables/*`): the nearest numbers of the machine. -/
def literals (rnd : ℚ → ℚ) (rule : Rule) : Rule := rule.map fun q => (rnd q.1, rnd q.2)

/-- `length_u`, single_element.hpp L86-88. -/
def lenR (rnd : ℚ → ℚ) (lo up : ℚ) : ℚ := |rnd (up - lo)|

/-- One coordinate, single_element.hpp L93-95; `fused`: product and sum rounded once. -/
def posR (rnd : ℚ → ℚ) (fused : Bool) (lo len x : ℚ) : ℚ := if fused then rnd (lo + len * x) else rnd (lo + rnd (len * x))

/-- The weight, single_element.hpp L96-98: products from left to right. -/
def weightR (rnd : ℚ → ℚ) (len : V3 ℚ) (u v w : ℚ) : ℚ := rnd (rnd (rnd (rnd (rnd (u * len.x) * v) * len.y) * w) * len.z)

/-- The body of the loops, single_element.hpp L93-98. -/
def tensorPointR (rnd : ℚ → ℚ) (fused : Bool) (lo len : V3 ℚ) (u v w : ℚ × ℚ) : VolPoint ℚ :=
  ⟨⟨posR rnd fused lo.x len.x u.1, posR rnd fused lo.y len.y v.1, posR rnd fused lo.z len.z w.1⟩, weightR rnd len u.2 v.2 w.2⟩

/-- `QuadratureSingleElement::AssembleIPs`, single_element.hpp L72-102. -/
def assembleIPsR (rnd : ℚ → ℚ) (fused : Bool) (ru rv rw : Rule) (b : Box ℚ) : List (VolPoint ℚ) :=
  let len : V3 ℚ := ⟨lenR rnd b.lower.x b.upper.x, lenR rnd b.lower.y b.upper.y, lenR rnd b.lower.z b.upper.z⟩
  (literals rnd ru).flatMap fun u => (literals rnd rv).flatMap fun v => (literals rnd rw).map fun w => tensorPointR rnd fused b.lower len u v w

/-- `QuadratureSingleElement::AssembleIPs` with the rules of the factory, as `Rules.elementRule`. -/
def elementRuleR (rnd : ℚ → ℚ) (fused : Bool) (order : V3 Nat) (method : Method) (b : Box ℚ) : Except Fault (List (VolPoint ℚ)) :=
  match getGauss order.x method, getGauss order.y method, getGauss order.z method with
  | .ok ru, .ok rv, .ok rw => .ok (assembleIPsR rnd fused ru rv rw b)
  | .error f, _, _ => .error f
  | _, .error f, _ => .error f
  | _, _, .error f => .error f

end QuESo.Round
