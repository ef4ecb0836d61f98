import Verif.Spec.Clip
import Verif.Spec.Surface

/-!
# Specification vocabulary: a surface and the planes of a grid

The planes of a grid are given by `c d i`, the position of the plane `i` of direction `d` (0, 1, 2 for x, y, z), `i ≤ n d`.
-/
namespace QuESo.Spec
variable {K : Type} [Field K] [LinearOrder K]

/-- The lower corner of a cell. -/
def lowerCorner (c : Nat → Nat → K) (i : V3 Nat) : V3 K := ⟨c 0 i.x, c 1 i.y, c 2 i.z⟩

/-- The upper corner of a cell. -/
def upperCorner (c : Nat → Nat → K) (i : V3 Nat) : V3 K := ⟨c 0 (i.x + 1), c 1 (i.y + 1), c 2 (i.z + 1)⟩

/-- The planes of the grid which divides a box into `n.x` by `n.y` by `n.z` equal cells. -/
def gridPlanes (n : V3 Nat) (dom : Box K) (d i : Nat) : K := dom.lower.get d + (dom.upper.get d - dom.lower.get d) / (n.get d : K) * (i : K)

/-- All cells of the grid. -/
def gridCells (n : Nat → Nat) : List (V3 Nat) :=
  (List.range (n 0)).flatMap fun i => (List.range (n 1)).flatMap fun j => (List.range (n 2)).map fun k => ⟨i, j, k⟩

/-- The point is on a plane of the grid of direction `d`. -/
def OnGridPlane (c : Nat → Nat → K) (n : Nat → Nat) (d : Nat) (q : V3 K) : Prop := ∃ i ≤ n d, q.get d = c d i

/-- The point is on an edge of the triangle. -/
def OnTriangleEdge (p1 p2 p3 q : V3 K) : Prop := OnSegment p1 q p2 ∨ OnSegment p2 q p3 ∨ OnSegment p3 q p1

/-- A point where the triangle and the planes of the grid meet in a corner: a corner of the triangle, a point where an edge of the
triangle meets a plane, or a point of the triangle on two planes of different directions. -/
def IsNode (c : Nat → Nat → K) (n : Nat → Nat) (p1 p2 p3 q : V3 K) : Prop :=
  InTriangle p1 p2 p3 q ∧ ((q = p1 ∨ q = p2 ∨ q = p3) ∨ (OnTriangleEdge p1 p2 p3 q ∧ ∃ d < 3, OnGridPlane c n d q) ∨
    ∃ d < 3, ∃ d' < 3, d ≠ d' ∧ OnGridPlane c n d q ∧ OnGridPlane c n d' q)

/-- The triangle is inside the grid, does not lie in one of its planes, and no corner of its parts is close to a plane without being
exactly on it. -/
structure ClearOfGrid (c : Nat → Nat → K) (n : Nat → Nat) (δ : K) (p1 p2 p3 : V3 K) : Prop where
  inside : ∀ d < 3, (c d 0 ≤ p1.get d ∧ p1.get d ≤ c d (n d)) ∧ (c d 0 ≤ p2.get d ∧ p2.get d ≤ c d (n d)) ∧ (c d 0 ≤ p3.get d ∧ p3.get d ≤ c d (n d))
  notIn : ∀ d < 3, ∀ i ≤ n d, ¬ (p1.get d = c d i ∧ p2.get d = c d i ∧ p3.get d = c d i)
  clear : ∀ q, IsNode c n p1 p2 p3 q → ∀ d < 3, ∀ i ≤ n d, -δ ≤ q.get d - c d i → q.get d - c d i ≤ δ → q.get d = c d i

/-- The pieces make up the triangle: they lie in it, have its normal and its orientation, do not overlap, and their areas add up to its area. -/
structure MakeUp (s : Tri K) (ps : List (Tri K)) : Prop where
  part : ∀ t ∈ ps, t.normal = s.normal ∧ InTriangle s.p1 s.p2 s.p3 t.p1 ∧ InTriangle s.p1 s.p2 s.p3 t.p2 ∧ InTriangle s.p1 s.p2 s.p3 t.p3
  oriented : ∀ t ∈ ps, ∃ k, 0 ≤ k ∧ triangleArea2 t.p1 t.p2 t.p3 =
    ⟨k * (triangleArea2 s.p1 s.p2 s.p3).x, k * (triangleArea2 s.p1 s.p2 s.p3).y, k * (triangleArea2 s.p1 s.p2 s.p3).z⟩
  disjoint : ps.Pairwise fun t t' => ¬ ∃ q, Inside t.p1 t.p2 t.p3 q ∧ Inside t'.p1 t'.p2 t'.p3 q
  area : surfaceArea2 ps = triangleArea2 s.p1 s.p2 s.p3

/-- The pieces, in some order, make up the triangles of the surface. -/
def MakeUpSurface (ts ps : List (Tri K)) : Prop := ∃ parts, List.Forall₂ MakeUp ts parts ∧ ps.Perm parts.flatten

end QuESo.Spec
