import Verif.Spec.Clip
import Verif.Spec.Box

/-!
# Specification vocabulary for the ray tests
-/
namespace QuESo.Spec
variable {K : Type _} [Field K] [LinearOrder K]

/-- The point at `t` on the line through `o` with direction `d` is the point with the barycentric coordinates `u`, `v`
in the plane of the triangle. -/
def PlaneHit (o d : V3 K) (c : V3 (V3 K)) (t u v : K) : Prop :=
  o.x + t * d.x = (1 - u - v) * c.x.x + u * c.y.x + v * c.z.x ∧
  o.y + t * d.y = (1 - u - v) * c.x.y + u * c.y.y + v * c.z.y ∧
  o.z + t * d.z = (1 - u - v) * c.x.z + u * c.y.z + v * c.z.z

/-- Twice the area vector of the triangle. -/
def area2 (c : V3 (V3 K)) : V3 K := triangleArea2 c.x c.y c.z

/-- The ray is not parallel to the triangle: the volume spanned by its direction and two edges is not smaller than ten
times the tolerance. -/
def NotParallel (zt : K) (d : V3 K) (c : V3 (V3 K)) : Prop :=
  10 * zt ≤ |d.x * (area2 c).x + d.y * (area2 c).y + d.z * (area2 c).z|

/-- The ray goes through the triangle and keeps the distance `zt` (in barycentric coordinates and along the ray) from
the edges and from its origin. -/
def ClearHit (zt : K) (o d : V3 K) (c : V3 (V3 K)) : Prop :=
  ∃ t u v, PlaneHit o d c t u v ∧ zt ≤ t ∧ zt ≤ u ∧ zt ≤ v ∧ u + v ≤ 1 - zt

/-- The ray passes the triangle and keeps the distance `zt` from it. -/
def ClearMiss (zt : K) (o d : V3 K) (c : V3 (V3 K)) : Prop :=
  ∀ t u v, PlaneHit o d c t u v → t < -zt ∨ u < -zt ∨ v < -zt ∨ u + v > 1 + zt

/-- The ray is well placed with respect to the triangle. -/
def Clear (zt : K) (o d : V3 K) (c : V3 (V3 K)) : Prop :=
  NotParallel zt d c ∧ (ClearHit zt o d c ∨ ClearMiss zt o d c)

/-- The ray goes through the triangle at a point that is closer than `zt` (in barycentric coordinates) to an edge. -/
def EdgeHit (zt : K) (o d : V3 K) (c : V3 (V3 K)) : Prop :=
  ∃ t u v, PlaneHit o d c t u v ∧ zt ≤ t ∧ 0 ≤ u ∧ 0 ≤ v ∧ u + v ≤ 1 ∧ (u < zt ∨ v < zt ∨ u + v > 1 - zt)

/-- The origin of the ray is closer than `zt` (along the ray) to a point of the triangle. -/
def SurfaceHit (zt : K) (o d : V3 K) (c : V3 (V3 K)) : Prop :=
  ∃ t u v, PlaneHit o d c t u v ∧ 0 ≤ t ∧ t < zt ∧ 0 ≤ u ∧ 0 ≤ v ∧ u + v ≤ 1

/-- The area of the triangle is greater than one hundred times the tolerance (both sides squared). -/
def Sizable (zt : K) (c : V3 (V3 K)) : Prop :=
  (2 * (100 * zt)) ^ 2 < (area2 c).x ^ 2 + (area2 c).y ^ 2 + (area2 c).z ^ 2

/-- The ray sees the back of the triangle: it goes in the direction of the area vector. -/
def BackFacing (d : V3 K) (c : V3 (V3 K)) : Prop :=
  0 < d.x * (area2 c).x + d.y * (area2 c).y + d.z * (area2 c).z

end QuESo.Spec
