import Verif.Model.Rounding
import Verif.Model.Mapping

/-!
# Model of the maps between the two spaces in floating-point arithmetic

`queso/utilities/mapping_utilities.hpp` L33-95 with every operation rounded, see `Model/Rounding.lean`.
-/
namespace QuESo.Round
open QuESo.Mapping

/-- One component of `detail::ComputeScale`, mapping_utilities.hpp L33-42. -/
def scaleR (rnd : ℚ → ℚ) (srcLo srcUp dstLo dstUp : ℚ) : ℚ := rnd (|rnd (dstUp - dstLo)| / |rnd (srcUp - srcLo)|)

/-- One component of `ToParametric` and `ToGlobal`, mapping_utilities.hpp L80-82, L92-94; `fused`: product and sum rounded once. -/
def mapR (rnd : ℚ → ℚ) (fused : Bool) (srcLo srcUp dstLo dstUp p : ℚ) : ℚ :=
  if fused then rnd (rnd (p - srcLo) * scaleR rnd srcLo srcUp dstLo dstUp + dstLo) else rnd (rnd (rnd (p - srcLo) * scaleR rnd srcLo srcUp dstLo dstUp) + dstLo)

/-- `ToParametric` for points, mapping_utilities.hpp L77-83. -/
def toParametricR (rnd : ℚ → ℚ) (fused : Bool) (p : V3 ℚ) (b : Bounds ℚ) : V3 ℚ :=
  ⟨mapR rnd fused b.global.lower.x b.global.upper.x b.parametric.lower.x b.parametric.upper.x p.x,
   mapR rnd fused b.global.lower.y b.global.upper.y b.parametric.lower.y b.parametric.upper.y p.y,
   mapR rnd fused b.global.lower.z b.global.upper.z b.parametric.lower.z b.parametric.upper.z p.z⟩

/-- `ToGlobal` for points, mapping_utilities.hpp L89-95. -/
def toGlobalR (rnd : ℚ → ℚ) (fused : Bool) (p : V3 ℚ) (b : Bounds ℚ) : V3 ℚ :=
  ⟨mapR rnd fused b.parametric.lower.x b.parametric.upper.x b.global.lower.x b.global.upper.x p.x,
   mapR rnd fused b.parametric.lower.y b.parametric.upper.y b.global.lower.y b.global.upper.y p.y,
   mapR rnd fused b.parametric.lower.z b.parametric.upper.z b.global.lower.z b.global.upper.z p.z⟩

end QuESo.Round
