import Verif.Model.MeshUtilities
import Verif.Model.Mapping

/-!
# Integration points on triangles

Models `queso/utilities/triangle_gauss_legendre_integration_points.hpp`, `GetIPsGlobal` of
`queso/utilities/triangle_utilities.hpp` and `GetBoundaryIps` of `queso/embedding/trimmed_domain.h` over an exact ordered field
`K`.  Numbers of the tables are the decimals of the source.
-/
namespace QuESo.TriRule
open QuESo.MeshUtil QuESo.Mapping

/-- `TriangleGaussLegendrePoints1`, triangle_gauss_legendre_integration_points.hpp L35-42: coordinates and weight. -/
def points1 : List (ℚ × ℚ × ℚ) := [(1 / 3, 1 / 3, 1 / 2)]

/-- `TriangleGaussLegendrePoints2`, triangle_gauss_legendre_integration_points.hpp L56-65. -/
def points2 : List (ℚ × ℚ × ℚ) := [(1 / 6, 1 / 6, 1 / 6), (2 / 3, 1 / 6, 1 / 6), (1 / 6, 2 / 3, 1 / 6)]

/-- `TriangleGaussLegendrePoints3`, triangle_gauss_legendre_integration_points.hpp L79-98. -/
def points3 : List (ℚ × ℚ × ℚ) :=
  let wa : ℚ := 0.054975871827661
  let wb : ℚ := 0.1116907948390055
  let na1 : ℚ := 0.816847572980459
  let nb1 : ℚ := 0.108103018168070
  let na2 : ℚ := 0.091576213509771
  let nb2 : ℚ := 0.445948490915965
  [(na2, na2, wa), (na1, na2, wa), (na2, na1, wa), (nb2, nb2, wb), (nb1, nb2, wb), (nb2, nb1, wb)]

/-- `TriangleGaussLegendrePoints4`, triangle_gauss_legendre_integration_points.hpp L112-139. -/
def points4 : List (ℚ × ℚ × ℚ) :=
  let wa : ℚ := 0.025422453185103408460
  let wb : ℚ := 0.058393137863189683013
  let wc : ℚ := 0.041425537809186787597
  let n1 : ℚ := 0.87382197101699554332
  let n2 : ℚ := 0.063089014491502228340
  let n3 : ℚ := 0.50142650965817915742
  let n4 : ℚ := 0.24928674517091042129
  let n5 : ℚ := 0.053145049844816947353
  let n6 : ℚ := 0.31035245103378440542
  let n7 : ℚ := 0.63650249912139864723
  [(n1, n2, wa), (n2, n1, wa), (n2, n2, wa), (n3, n4, wb), (n4, n3, wb), (n4, n4, wb), (n5, n6, wc), (n6, n5, wc),
    (n5, n7, wc), (n6, n7, wc), (n7, n5, wc), (n7, n6, wc)]

/-- `detail::GetIntegrationPoints`, triangle_utilities.hpp L116-132 (`none`: an error is thrown). -/
def pointsOf : Nat → Option (List (ℚ × ℚ × ℚ))
  | 0 => some points1
  | 1 => some points2
  | 2 => some points3
  | 3 => some points4
  | 4 => some points4
  | _ => none

variable {K : Type} [Field K] [LinearOrder K]

/-- `detail::ShapeFunctionValue`, triangle_utilities.hpp L134-145, for the indices 0, 1 and 2 (the only ones that are used). -/
def shapeValue (r s : K) : Nat → K
  | 0 => 1 - r - s
  | 1 => r
  | _ => s

/-- One integration point, triangle_utilities.hpp L175-189. -/
def ipGlobal (norm : V3 K → K) (zt : K) (c : V3 (V3 K)) (q : ℚ × ℚ × ℚ) : BndPoint K :=
  let n := shapeValue (q.1 : K) (q.2.1 : K)
  ⟨⟨n 0 * c.x.x + n 1 * c.y.x + n 2 * c.z.x, n 0 * c.x.y + n 1 * c.y.y + n 2 * c.z.y, n 0 * c.x.z + n 1 * c.y.z + n 2 * c.z.z⟩,
    2 * (q.2.2 : K) * area norm c, normal norm zt c⟩

/-- `GetIPsGlobal`, triangle_utilities.hpp L162-193 (`none`: an error is thrown). -/
def ipsGlobal (norm : V3 K → K) (zt : K) (c : V3 (V3 K)) (method : Nat) : Option (List (BndPoint K)) :=
  match pointsOf method with
  | none => none
  | some qs => some (qs.map (ipGlobal norm zt c))

/-- The loop of `GetBoundaryIps` over the triangles, trimmed_domain.h L139-152; `map` is the identity in global space and
`mapping::ToParametric` otherwise. -/
def boundaryLoop (norm : V3 K → K) (zt : K) (map : BndPoint K → BndPoint K) : List (Tri K) → List (BndPoint K) → Option (List (BndPoint K))
  | [], out => some out
  | t :: rest, out =>
    match ipsGlobal norm zt (Tri.corners t) 3 with
    | none => none
    | some ps => boundaryLoop norm zt map rest (out ++ ps.map map)

/-- `GetBoundaryIps`, trimmed_domain.h L131-155: `closed` is the boundary mesh (`none`: an error is thrown or memory is
accessed out of range).  `param` says that points in parametric space are requested. -/
def boundaryIps (norm : V3 K → K) (zt : K) (closed : Mesh K) (param : Bool) (bounds : Bounds K) : Option (List (BndPoint K)) :=
  match closed.visit with
  | none => none
  | some ts => boundaryLoop norm zt (if param then fun q => bndToParametric norm zt q bounds else id) ts []

end QuESo.TriRule
