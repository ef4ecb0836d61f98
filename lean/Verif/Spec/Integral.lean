import Verif.Spec.Surface
import Mathlib.MeasureTheory.Integral.IntervalIntegral.Basic
import Mathlib.Analysis.Calculus.ContDiff.Defs
import Mathlib.Analysis.Calculus.Deriv.Basic

/-!
# Specification vocabulary for integrals over triangles and solids
-/
namespace QuESo.Spec
open MeasureTheory

/-- The integral over the triangle with the corners (0,0), (1,0), (0,1). -/
noncomputable def unitTriangle (g : ℝ → ℝ → ℝ) : ℝ := ∫ x in (0 : ℝ)..1, ∫ y in (0 : ℝ)..(1 - x), g x y

/-- The integral over the tetrahedron with the corners (0,0,0), (1,0,0), (0,1,0), (0,0,1). -/
noncomputable def unitTetrahedron (g : ℝ → ℝ → ℝ → ℝ) : ℝ :=
  ∫ x in (0 : ℝ)..1, ∫ y in (0 : ℝ)..(1 - x), ∫ z in (0 : ℝ)..(1 - x - y), g x y z

/-- The point of a triangle with the given coordinates. -/
def trianglePoint (a b c : V3 ℝ) (s t : ℝ) : V3 ℝ :=
  ⟨a.x + s * (b.x - a.x) + t * (c.x - a.x), a.y + s * (b.y - a.y) + t * (c.y - a.y), a.z + s * (b.z - a.z) + t * (c.z - a.z)⟩

/-- The point of a tetrahedron with the given coordinates. -/
def tetrahedronPoint (o a b c : V3 ℝ) (r s t : ℝ) : V3 ℝ :=
  ⟨o.x + r * (a.x - o.x) + s * (b.x - o.x) + t * (c.x - o.x), o.y + r * (a.y - o.y) + s * (b.y - o.y) + t * (c.y - o.y),
    o.z + r * (a.z - o.z) + s * (b.z - o.z) + t * (c.z - o.z)⟩

/-- The flux of a vector field through a triangle: the integral of its component along the area vector. -/
noncomputable def flux (F : V3 ℝ → V3 ℝ) (t : Tri ℝ) : ℝ :=
  let a := triangleArea2 t.p1 t.p2 t.p3
  unitTriangle fun r s => let v := F (trianglePoint t.p1 t.p2 t.p3 r s); v.x * a.x + v.y * a.y + v.z * a.z

/-- Six times the signed volume of a tetrahedron. -/
noncomputable def tetrahedronVolume6 (o a b c : V3 ℝ) : ℝ :=
  let n := triangleArea2 o b c
  (a.x - o.x) * n.x + (a.y - o.y) * n.y + (a.z - o.z) * n.z

/-- The integral of a function over the solid that a surface encloses, as the sum of the signed integrals over the tetrahedra
between the triangles and the point `o`.  (Tetrahedra whose triangle faces `o` count negative.) -/
noncomputable def solidIntegral (o : V3 ℝ) (f : V3 ℝ → ℝ) (ts : List (Tri ℝ)) : ℝ :=
  (ts.map fun t => tetrahedronVolume6 o t.p1 t.p2 t.p3 *
    unitTetrahedron fun r s u => f (tetrahedronPoint o t.p1 t.p2 t.p3 r s u)).sum

/-- The integral over a box. -/
noncomputable def boxIntegral (b : Box ℝ) (f : V3 ℝ → ℝ) : ℝ :=
  ∫ x in b.lower.x..b.upper.x, ∫ y in b.lower.y..b.upper.y, ∫ z in b.lower.z..b.upper.z, f ⟨x, y, z⟩

/-- The function has continuous first derivatives. -/
def Smooth (g : V3 ℝ → ℝ) : Prop := ContDiff ℝ 1 fun q : ℝ × ℝ × ℝ => g ⟨q.1, q.2.1, q.2.2⟩

/-- All components have continuous first derivatives. -/
def SmoothField (F : V3 ℝ → V3 ℝ) : Prop := Smooth (fun p => (F p).x) ∧ Smooth (fun p => (F p).y) ∧ Smooth (fun p => (F p).z)

/-- The integral of a function over a triangle in space. -/
noncomputable def surfaceIntegral (norm : V3 ℝ → ℝ) (f : V3 ℝ → ℝ) (t : Tri ℝ) : ℝ :=
  norm (triangleArea2 t.p1 t.p2 t.p3) * unitTriangle fun r s => f (trianglePoint t.p1 t.p2 t.p3 r s)

/-- The polynomial with the given terms (coefficient and exponents). -/
noncomputable def polynomial3 (l : List (ℝ × V3 Nat)) (p : V3 ℝ) : ℝ :=
  (l.map fun t => t.1 * (p.x ^ t.2.x * p.y ^ t.2.y * p.z ^ t.2.z)).sum

/-- The degree up to which a rule for triangles integrates polynomials: rules with 1, 3, 6, 12 and 12 points. -/
def exactDegree : Nat → Nat
  | 0 => 1
  | 1 => 2
  | 2 => 4
  | _ => 6

/-- The error of the digits of the tables, for a function with coefficients that add up to one. -/
noncomputable def ruleTolerance : Nat → ℝ
  | 0 => 0
  | 1 => 0
  | 2 => 1 / 10 ^ 15
  | _ => 1 / 10 ^ 20

/-- All coordinates of the corners are at most `m` in absolute value. -/
def CornersBelow (m : ℝ) (t : Tri ℝ) : Prop :=
  ∀ v ∈ [t.p1, t.p2, t.p3], |v.x| ≤ m ∧ |v.y| ≤ m ∧ |v.z| ≤ m

/-- The divergence of a vector field. -/
noncomputable def divergence (F : V3 ℝ → V3 ℝ) (p : V3 ℝ) : ℝ :=
  deriv (fun t => (F ⟨t, p.y, p.z⟩).x) p.x + deriv (fun t => (F ⟨p.x, t, p.z⟩).y) p.y + deriv (fun t => (F ⟨p.x, p.y, t⟩).z) p.z

end QuESo.Spec
