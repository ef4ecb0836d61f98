import Verif.Model.Vector

/-!
# Mapping between parametric and global space

Models `queso/utilities/mapping_utilities.hpp` over an exact ordered field (no rounding).  Divisions by
zero follow Lean's convention `x / 0 = 0`; the theorems only use boxes for which no such division occurs.
-/
namespace QuESo.Mapping
variable {K : Type _} [Field K] [LinearOrder K]

/-- `ElementBounds`, the pair of a global and a parametric box, `queso/containers/element_core.hpp` L26, as used by
`queso/utilities/mapping_utilities.hpp`. -/
structure Bounds (K : Type _) where
  global : Box K
  parametric : Box K

/-- `detail::ComputeScale`, mapping_utilities.hpp L33-42.  Simplification: the assertions of debug builds
are left out. -/
def computeScale (src dst : Box K) : V3 K :=
  ⟨|dst.upper.x - dst.lower.x| / |src.upper.x - src.lower.x|,
   |dst.upper.y - dst.lower.y| / |src.upper.y - src.lower.y|,
   |dst.upper.z - dst.lower.z| / |src.upper.z - src.lower.z|⟩

/-- `ToParametric` for points, mapping_utilities.hpp L77-83. -/
def toParametric (p : V3 K) (b : Bounds K) : V3 K :=
  let s := computeScale b.global b.parametric
  ⟨(p.x - b.global.lower.x) * s.x + b.parametric.lower.x,
   (p.y - b.global.lower.y) * s.y + b.parametric.lower.y,
   (p.z - b.global.lower.z) * s.z + b.parametric.lower.z⟩

/-- `ToGlobal` for points, mapping_utilities.hpp L89-95. -/
def toGlobal (p : V3 K) (b : Bounds K) : V3 K :=
  let s := computeScale b.parametric b.global
  ⟨(p.x - b.parametric.lower.x) * s.x + b.global.lower.x,
   (p.y - b.parametric.lower.y) * s.y + b.global.lower.y,
   (p.z - b.parametric.lower.z) * s.z + b.global.lower.z⟩

/-- `DetJ`, mapping_utilities.hpp L100-104. -/
def detJ (b : Bounds K) : K :=
  let s := computeScale b.parametric b.global
  s.x * s.y * s.z

/-- A volume integration point: position and weight (`queso/containers/integration_point.hpp`). -/
structure VolPoint (K : Type _) where
  pos : V3 K
  weight : K
  deriving DecidableEq

/-- `ToParametric` for volume integration points, mapping_utilities.hpp L111-119. -/
def ipToParametric (q : VolPoint K) (b : Bounds K) : VolPoint K :=
  ⟨toParametric q.pos b, q.weight / detJ b⟩

/-- `ToGlobal` for volume integration points, mapping_utilities.hpp L126-134. -/
def ipToGlobal (q : VolPoint K) (b : Bounds K) : VolPoint K :=
  ⟨toGlobal q.pos b, q.weight * detJ b⟩

/-- A boundary integration point: position, weight and normal
(`queso/containers/boundary_integration_point.hpp`). -/
structure BndPoint (K : Type _) where
  pos : V3 K
  weight : K
  normal : V3 K
  deriving DecidableEq

/-- `detail::TransformAreaVector`, mapping_utilities.hpp L48-53. -/
def areaVector (n s : V3 K) : V3 K := ⟨n.x * s.y * s.z, n.y * s.x * s.z, n.z * s.x * s.y⟩

/-- `detail::TransformAreaData`, mapping_utilities.hpp L59-69.  `norm` is `Math::Norm` (a square root,
kept as a parameter), `zeroTol` is `ZEROTOL`. -/
def areaData (norm : V3 K → K) (zeroTol : K) (n s : V3 K) : V3 K × K :=
  let t := areaVector n s
  let r := norm t
  if r > zeroTol then (V3.scale (1 / r) t, r) else (⟨0, 0, 0⟩, r)

/-- `ToParametric` for boundary integration points, mapping_utilities.hpp L141-151. -/
def bndToParametric (norm : V3 K → K) (zeroTol : K) (q : BndPoint K) (b : Bounds K) : BndPoint K :=
  let d := areaData norm zeroTol q.normal (computeScale b.global b.parametric)
  ⟨toParametric q.pos b, q.weight * d.2, d.1⟩

/-- `ToGlobal` for boundary integration points, mapping_utilities.hpp L158-168. -/
def bndToGlobal (norm : V3 K → K) (zeroTol : K) (q : BndPoint K) (b : Bounds K) : BndPoint K :=
  let d := areaData norm zeroTol q.normal (computeScale b.parametric b.global)
  ⟨toGlobal q.pos b, q.weight * d.2, d.1⟩

end QuESo.Mapping
