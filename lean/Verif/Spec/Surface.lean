import Verif.Model.Mesh
import Verif.Spec.Clip
import Mathlib.Algebra.Order.BigOperators.Group.List

/-!
# Specification vocabulary for surfaces made of triangles
-/
namespace QuESo.Spec
variable {K : Type} [Field K] [LinearOrder K]

/-- The function is the Euclidean norm. -/
def IsNorm3 (norm : V3 K → K) : Prop := ∀ v, 0 ≤ norm v ∧ norm v ^ 2 = v.x ^ 2 + v.y ^ 2 + v.z ^ 2

/-- The point in the middle of two points. -/
def middle (a b : V3 K) : V3 K := ⟨(a.x + b.x) / 2, (a.y + b.y) / 2, (a.z + b.z) / 2⟩

/-- The four triangles that a triangle is divided into by the middles of its edges. -/
def quarters (t : Tri K) : List (Tri K) :=
  [⟨t.p1, middle t.p1 t.p2, middle t.p3 t.p1, t.normal⟩, ⟨middle t.p1 t.p2, t.p2, middle t.p2 t.p3, t.normal⟩,
    ⟨middle t.p2 t.p3, t.p3, middle t.p3 t.p1, t.normal⟩, ⟨middle t.p1 t.p2, middle t.p2 t.p3, middle t.p3 t.p1, t.normal⟩]

/-- The triangles come from one triangle by dividing some triangles, again and again. -/
inductive Divided : Tri K → List (Tri K) → Prop
  | whole (t : Tri K) : Divided t [t]
  | split (t q1 q2 q3 q4 : Tri K) (a b c d : List (Tri K)) : quarters t = [q1, q2, q3, q4] →
      Divided q1 a → Divided q2 b → Divided q3 c → Divided q4 d → Divided t (a ++ b ++ c ++ d)

/-- The second list consists of divided triangles of the first list, in the same order. -/
def RefinementOf (ts ts' : List (Tri K)) : Prop := ∃ parts, List.Forall₂ Divided ts parts ∧ ts' = parts.flatten

/-- The point is on the surface. -/
def OnSurface (ts : List (Tri K)) (q : V3 K) : Prop := ∃ t ∈ ts, InTriangle t.p1 t.p2 t.p3 q

/-- Twice the area vector of the surface. -/
def surfaceArea2 (ts : List (Tri K)) : V3 K := sumV (ts.map fun t => triangleArea2 t.p1 t.p2 t.p3)

/-- Six times the signed volume of the tetrahedra spanned by the triangles and the origin. -/
def volume6 (ts : List (Tri K)) : K :=
  (ts.map fun t => t.p1.x * (t.p2.y * t.p3.z - t.p2.z * t.p3.y) + t.p1.y * (t.p2.z * t.p3.x - t.p2.x * t.p3.z) +
    t.p1.z * (t.p2.x * t.p3.y - t.p2.y * t.p3.x)).sum

/-- The sum of the areas. -/
def totalArea (norm : V3 K → K) (ts : List (Tri K)) : K := (ts.map fun t => norm (triangleArea2 t.p1 t.p2 t.p3) / 2).sum

/-- The directed edges of a triangle. -/
def edgesOf (t : Tri K) : List (V3 K × V3 K) := [(t.p1, t.p2), (t.p2, t.p3), (t.p3, t.p1)]

/-- The surface is closed: every edge is used in one direction as often as in the other one. -/
def ClosedSurface (ts : List (Tri K)) : Prop := (ts.flatMap edgesOf).Perm ((ts.flatMap edgesOf).map Prod.swap)

/-- The point is on the segment. -/
def OnSegment (a b c : V3 K) : Prop :=
  ∃ s, (0 ≤ s ∧ s ≤ 1) ∧ b = ⟨a.x + s * (c.x - a.x), a.y + s * (c.y - a.y), a.z + s * (c.z - a.z)⟩

/-- A quantity of directed edges that changes its sign with the direction and adds up when an edge is cut. -/
structure EdgeQuantity (g : V3 K → V3 K → K) : Prop where
  swap : ∀ a b, g b a = -g a b
  cut : ∀ a b c, OnSegment a b c → g a c = g a b + g b c

/-- The sum of a quantity over the directed edges of the triangles. -/
def edgeSum (g : V3 K → V3 K → K) (ts : List (Tri K)) : K := ((ts.flatMap edgesOf).map fun e => g e.1 e.2).sum

/-- The surface is closed up to the division of edges: whatever is measured along the edges, it cancels.  (Every part of an edge is used in
one direction as often as in the other one, but an edge on one side may be divided by vertices that the other side does not have.) -/
def SealedSurface (ts : List (Tri K)) : Prop :=
  ∀ g : V3 K → V3 K → K, EdgeQuantity g → edgeSum g ts = 0

/-- The edges of the second list come from the first list by cutting edges, again and again. -/
inductive CutTo (es : List (V3 K × V3 K)) : List (V3 K × V3 K) → Prop
  | same : CutTo es es
  | cut (l r : List (V3 K × V3 K)) (a b c : V3 K) : CutTo es (l ++ (a, c) :: r) → OnSegment a b c → CutTo es (l ++ (a, b) :: (b, c) :: r)

/-- The normals are unit normals of the triangles: multiplied by (twice) the area they give the area vectors. -/
def UnitNormals (norm : V3 K → K) (ts : List (Tri K)) : Prop :=
  ∀ t ∈ ts, let a := triangleArea2 t.p1 t.p2 t.p3
    norm a * t.normal.x = a.x ∧ norm a * t.normal.y = a.y ∧ norm a * t.normal.z = a.z

/-- The moved surface. -/
def translate (d : V3 K) (ts : List (Tri K)) : List (Tri K) :=
  let mv : V3 K → V3 K := fun p => ⟨p.x + d.x, p.y + d.y, p.z + d.z⟩
  ts.map fun t => ⟨mv t.p1, mv t.p2, mv t.p3, t.normal⟩

/-- The component with an index. -/
def coord (v : V3 K) (i : Fin 3) : K := match i with
  | 0 => v.x
  | 1 => v.y
  | 2 => v.z

end QuESo.Spec
