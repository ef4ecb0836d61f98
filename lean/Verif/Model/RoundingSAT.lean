import Verif.Model.Rounding
import Verif.Model.AABB

/-!
# Model of the triangle-box test in floating-point arithmetic

`queso/embedding/aabb_primitive.cpp` with every operation rounded, see `Model/Rounding.lean`.  `fused`: the compiler combines products and sums to operations that are rounded once.
-/
namespace QuESo.Round

/-- Sums of three products as in `check_axis`, aabb_primitive.cpp L147-158. -/
def dotR (rnd : ℚ → ℚ) (fused : Bool) (a b : V3 ℚ) : ℚ :=
  if fused then rnd (a.z * b.z + rnd (a.y * b.y + rnd (a.x * b.x))) else rnd (rnd (rnd (a.x * b.x) + rnd (a.y * b.y)) + rnd (a.z * b.z))

/-- Differences of two products as in the axes, aabb_primitive.cpp L57-125. -/
def minorR (rnd : ℚ → ℚ) (fused : Bool) (a b c d : ℚ) : ℚ := if fused then rnd (a * b - rnd (c * d)) else rnd (rnd (a * b) - rnd (c * d))

/-- The axes that are products of vectors, aabb_primitive.cpp L57-125. -/
def crossR (rnd : ℚ → ℚ) (fused : Bool) (u f : V3 ℚ) : V3 ℚ := ⟨minorR rnd fused u.y f.z u.z f.y, minorR rnd fused u.z f.x u.x f.z, minorR rnd fused u.x f.y u.y f.x⟩

/-- Differences of points, aabb_primitive.cpp L38-45. -/
def diffR (rnd : ℚ → ℚ) (a b : V3 ℚ) : V3 ℚ := ⟨rnd (a.x - b.x), rnd (a.y - b.y), rnd (a.z - b.z)⟩

/-- `AABB_base::computeCentre`, `external_libraries/aabb_tree/AABB_base.cc` L168-176. -/
def centreR (rnd : ℚ → ℚ) (b : Box ℚ) : V3 ℚ := ⟨rnd (1 / 2 * rnd (b.lower.x + b.upper.x)), rnd (1 / 2 * rnd (b.lower.y + b.upper.y)), rnd (1 / 2 * rnd (b.lower.z + b.upper.z))⟩

/-- Half of the size of the box without the tolerance, aabb_primitive.cpp L32-35. -/
def extentR (rnd : ℚ → ℚ) (b : Box ℚ) (tol : ℚ) : V3 ℚ :=
  ⟨rnd (rnd (rnd (b.upper.x - b.lower.x) / 2) - tol), rnd (rnd (rnd (b.upper.y - b.lower.y) / 2) - tol), rnd (rnd (rnd (b.upper.z - b.lower.z) / 2) - tol)⟩

/-- `AABB_primitive::check_axis`, aabb_primitive.cpp L136-165. -/
def checkAxisR (rnd : ℚ → ℚ) (fused : Bool) (w0 w1 w2 extent axis : V3 ℚ) : Bool :=
  let pv0 := dotR rnd fused w0 axis
  let pv1 := dotR rnd fused w1 axis
  let pv2 := dotR rnd fused w2 axis
  let pu0 := dotR rnd fused ⟨1, 0, 0⟩ axis
  let pu1 := dotR rnd fused ⟨0, 1, 0⟩ axis
  let pu2 := dotR rnd fused ⟨0, 0, 1⟩ axis
  let r := dotR rnd fused extent ⟨|pu0|, |pu1|, |pu2|⟩
  if max (-(max (max pv0 pv1) pv2)) (min (min pv0 pv1) pv2) > r then false else true

/-- The thirteen axes in the order of the code, aabb_primitive.cpp L42-129. -/
def axesR (rnd : ℚ → ℚ) (fused : Bool) (v0 v1 v2 : V3 ℚ) : List (V3 ℚ) :=
  let f0 := diffR rnd v1 v0
  let f1 := diffR rnd v2 v1
  let f2 := diffR rnd v0 v2
  let u0 : V3 ℚ := ⟨1, 0, 0⟩
  let u1 : V3 ℚ := ⟨0, 1, 0⟩
  let u2 : V3 ℚ := ⟨0, 0, 1⟩
  [crossR rnd fused u0 f0, crossR rnd fused u0 f1, crossR rnd fused u0 f2, crossR rnd fused u1 f0, crossR rnd fused u1 f1, crossR rnd fused u1 f2, crossR rnd fused u2 f0, crossR rnd fused u2 f1,
    crossR rnd fused u2 f2, u0, u1, u2, crossR rnd fused f0 f1]

/-- `AABB_primitive::intersect` with a triangle, aabb_primitive.cpp L29-134. -/
def intersectTriR (rnd : ℚ → ℚ) (fused : Bool) (b : Box ℚ) (v0 v1 v2 : V3 ℚ) (tol : ℚ) : Bool :=
  (axesR rnd fused v0 v1 v2).all fun axis => checkAxisR rnd fused (diffR rnd v0 (centreR rnd b)) (diffR rnd v1 (centreR rnd b)) (diffR rnd v2 (centreR rnd b)) (extentR rnd b tol) axis

end QuESo.Round
