import Verif.Model.Mapping

/-!
# Tensor-product rule on one box

Models `queso/quadrature/single_element.hpp`.  The one-dimensional rules (tables on the unit interval,
`IntegrationPointFactory1D::GetGauss`) are parameters here: lists of (position, weight).
-/
namespace QuESo.Quad
open Mapping
variable {K : Type _} [Field K] [LinearOrder K]

/-- The point of the triple loop body, single_element.hpp L93-98. -/
def tensorPoint (lo : V3 K) (len : V3 K) (u v w : K × K) : VolPoint K :=
  ⟨⟨lo.x + len.x * u.1, lo.y + len.y * v.1, lo.z + len.z * w.1⟩,
   u.2 * len.x * v.2 * len.y * w.2 * len.z⟩

/-- `QuadratureSingleElement::AssembleIPs`, single_element.hpp L72-102: three nested loops, u outermost. -/
def assembleIPs (ru rv rw : List (K × K)) (b : Box K) : List (VolPoint K) :=
  let len : V3 K := ⟨|b.upper.x - b.lower.x|, |b.upper.y - b.lower.y|, |b.upper.z - b.lower.z|⟩
  ru.flatMap fun u => rv.flatMap fun v => rw.map fun w => tensorPoint b.lower len u v w

end QuESo.Quad
