import Verif.Model.Basic
import Verif.Model.Mesh
import Mathlib.Algebra.Order.Field.Basic

/-!
# Specification vocabulary for clipping
-/
namespace QuESo.Spec
variable {K : Type _} [Field K] [LinearOrder K]

/-- The point is a convex combination of the three corners. -/
def InTriangle (p1 p2 p3 q : V3 K) : Prop :=
  ∃ u v w : K, 0 ≤ u ∧ 0 ≤ v ∧ 0 ≤ w ∧ u + v + w = 1 ∧ q.x = u * p1.x + v * p2.x + w * p3.x ∧
    q.y = u * p1.y + v * p2.y + w * p3.y ∧ q.z = u * p1.z + v * p2.z + w * p3.z

/-- The point is not farther than `tol` outside any face of the box. -/
def InBoxTol (lo up : V3 K) (tol : K) (q : V3 K) : Prop :=
  (lo.x - tol ≤ q.x ∧ q.x ≤ up.x + tol) ∧ (lo.y - tol ≤ q.y ∧ q.y ≤ up.y + tol) ∧
    (lo.z - tol ≤ q.z ∧ q.z ≤ up.z + tol)

/-- The point is farther than `tol` inside all faces of the box. -/
def DeepInBox (lo up : V3 K) (tol : K) (q : V3 K) : Prop :=
  (lo.x + tol < q.x ∧ q.x < up.x - tol) ∧ (lo.y + tol < q.y ∧ q.y < up.y - tol) ∧
    (lo.z + tol < q.z ∧ q.z < up.z - tol)

/-- The point lies on the face with index `k` of the box, in the order -x, x, -y, y, -z, z, up to `tol`. -/
def OnFace (lo up : V3 K) (tol : K) (k : Nat) (q : V3 K) : Prop :=
  match k with
  | 0 => |q.x - lo.x| ≤ tol
  | 1 => |q.x - up.x| ≤ tol
  | 2 => |q.y - lo.y| ≤ tol
  | 3 => |q.y - up.y| ≤ tol
  | 4 => |q.z - lo.z| ≤ tol
  | 5 => |q.z - up.z| ≤ tol
  | _ => False

/-- The bounding box of the triangle and the box overlap: in no direction all corners are on or beyond the
same face. -/
def BoundsOverlap (p1 p2 p3 lo up : V3 K) : Prop :=
  ((lo.x < p1.x ∨ lo.x < p2.x ∨ lo.x < p3.x) ∧ (p1.x < up.x ∨ p2.x < up.x ∨ p3.x < up.x)) ∧
  ((lo.y < p1.y ∨ lo.y < p2.y ∨ lo.y < p3.y) ∧ (p1.y < up.y ∨ p2.y < up.y ∨ p3.y < up.y)) ∧
  ((lo.z < p1.z ∨ lo.z < p2.z ∨ lo.z < p3.z) ∧ (p1.z < up.z ∨ p2.z < up.z ∨ p3.z < up.z))

/-- No half-space separates the point from the given points: every half-space that contains the given points
contains the point.  (For real numbers this says that the point lies in their convex hull.) -/
def InHull (l : List (V3 K)) (q : V3 K) : Prop :=
  ∀ (n : V3 K) (c : K), (∀ v ∈ l, n.x * v.x + n.y * v.y + n.z * v.z ≤ c) → n.x * q.x + n.y * q.y + n.z * q.z ≤ c

end QuESo.Spec

namespace QuESo.Spec
variable {K : Type _} [Field K]

/-- The edges of a closed polygon: each vertex with the next one, the last with the first. -/
def cyclicPairs {α : Type _} (l : List α) : List (α × α) := l.zip (l.rotate 1)

/-- Twice the area vector of a triangle: `(b - a) × (c - a)`. -/
def triangleArea2 (a b c : V3 K) : V3 K :=
  ⟨(b.y - a.y) * (c.z - a.z) - (b.z - a.z) * (c.y - a.y), (b.z - a.z) * (c.x - a.x) - (b.x - a.x) * (c.z - a.z),
    (b.x - a.x) * (c.y - a.y) - (b.y - a.y) * (c.x - a.x)⟩

/-- The triangle has an area and the point is strictly inside it. -/
def Inside [LinearOrder K] (p1 p2 p3 q : V3 K) : Prop :=
  triangleArea2 p1 p2 p3 ≠ ⟨0, 0, 0⟩ ∧ ∃ u v w : K, 0 < u ∧ 0 < v ∧ 0 < w ∧ u + v + w = 1 ∧ q.x = u * p1.x + v * p2.x + w * p3.x ∧
    q.y = u * p1.y + v * p2.y + w * p3.y ∧ q.z = u * p1.z + v * p2.z + w * p3.z

/-- The component-wise sum. -/
def sumV (l : List (V3 K)) : V3 K := ⟨(l.map V3.x).sum, (l.map V3.y).sum, (l.map V3.z).sum⟩

/-- Twice the area vector of a closed polygon: the sum of `a × b` over its edges. -/
def polygonArea2 (l : List (V3 K)) : V3 K :=
  sumV ((cyclicPairs l).map fun e => ⟨e.1.y * e.2.z - e.1.z * e.2.y, e.1.z * e.2.x - e.1.x * e.2.z, e.1.x * e.2.y - e.1.y * e.2.x⟩)

/-- The mean of the points. -/
def mean (l : List (V3 K)) : V3 K := ⟨(sumV l).x / l.length, (sumV l).y / l.length, (sumV l).z / l.length⟩

/-- The triangles a polygon is split into: three corners are one triangle; more corners give for each edge the
triangle of the edge and the mean. -/
def triangulation (l : List (V3 K)) (normal : V3 K) : List (Tri K) :=
  match l with
  | [] => []
  | [_] => []
  | [_, _] => []
  | [a, b, c] => [⟨a, b, c, normal⟩]
  | l => (cyclicPairs l).map fun e => ⟨e.1, e.2, mean l, normal⟩

end QuESo.Spec
