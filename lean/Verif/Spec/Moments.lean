import Verif.Spec.MomentFitting
import Verif.Model.Polynomial
import Mathlib.Algebra.BigOperators.Group.Finset.Basic

/-!
# Specification vocabulary for moments

The functions that are fitted are products of three Legendre polynomials (`Poly.fx`, see property C33) scaled to
a box.
-/
namespace QuESo.Spec
open Mapping
variable {K : Type _} [Field K] [LinearOrder K]

/-- The product of Legendre polynomials of orders `i` on the box `c`, at the point `p`. -/
def legendre (c : Box K) (i : V3 Nat) (p : V3 K) : K :=
  Poly.fx p.x i.x c.lower.x c.upper.x * Poly.fx p.y i.y c.lower.y c.upper.y *
    Poly.fx p.z i.z c.lower.z c.upper.z

/-- The moment of order `i` that the volume points give, in physical space: positions are mapped to the physical
cell and weights are scaled with the ratio of volumes. -/
def ruleMoment (cell : Bounds K) (i : V3 Nat) (pts : List (VolPoint K)) : K :=
  (pts.map fun q => (ipToGlobal q cell).weight * legendre cell.global i (ipToGlobal q cell).pos).sum

/-- The sum over all orders up to `o` of the squares of the differences between the moments of a rule and the
given moments. -/
def momentError (cell : Bounds K) (o : V3 Nat) (pts : List (VolPoint K)) (m : V3 Nat → K) : K :=
  ∑ a ∈ Finset.range (o.x + 1), ∑ b ∈ Finset.range (o.y + 1), ∑ c ∈ Finset.range (o.z + 1),
    (ruleMoment cell ⟨a, b, c⟩ pts - m ⟨a, b, c⟩) ^ 2

/-- The sum of squares of all moments up to order `o`. -/
def momentSquares (o : V3 Nat) (m : V3 Nat → K) : K :=
  ∑ a ∈ Finset.range (o.x + 1), ∑ b ∈ Finset.range (o.y + 1), ∑ c ∈ Finset.range (o.z + 1), (m ⟨a, b, c⟩) ^ 2

/-- A solver of `A x = b` (columns `A`) gives one number for each column and the norm of `A x - b`. -/
def ReportsResidual (nnls : List (List K) → List K → List K × K) : Prop :=
  ∀ A b, (nnls A b).1.length = A.length ∧ 0 ≤ (nnls A b).2 ∧
    (nnls A b).2 ^ 2 = ((List.range b.length).map fun k =>
      ((List.zipWith (fun w (col : List K) => w * col.getD k 0) (nnls A b).1 A).sum - b.getD k 0) ^ 2).sum

/-- The solver gives no negative numbers. -/
def NoNegative (nnls : List (List K) → List K → List K × K) : Prop := ∀ A b, ∀ w ∈ (nnls A b).1, 0 ≤ w

/-- The Euclidean norm. -/
def IsNorm (norm : List K → K) : Prop := ∀ v, 0 ≤ norm v ∧ norm v ^ 2 = (v.map fun x => x ^ 2).sum

/-- The vector field whose flux through the boundary is the moment: a third of the antiderivative in each
direction. -/
def fluxField (c : Box K) (i : V3 Nat) (p : V3 K) : V3 K :=
  ⟨1 / 3 * (Poly.fxInt p.x i.x c.lower.x c.upper.x * Poly.fx p.y i.y c.lower.y c.upper.y *
      Poly.fx p.z i.z c.lower.z c.upper.z),
   1 / 3 * (Poly.fx p.x i.x c.lower.x c.upper.x * Poly.fxInt p.y i.y c.lower.y c.upper.y *
      Poly.fx p.z i.z c.lower.z c.upper.z),
   1 / 3 * (Poly.fx p.x i.x c.lower.x c.upper.x * Poly.fx p.y i.y c.lower.y c.upper.y *
      Poly.fxInt p.z i.z c.lower.z c.upper.z)⟩

/-- The flux of the field through a surface that is given by points with weights and normals. -/
def boundaryMoment (c : Box K) (bnd : List (BndPoint K)) (i : V3 Nat) : K :=
  (bnd.map fun q => q.weight * (q.normal.x * (fluxField c i q.pos).x + q.normal.y * (fluxField c i q.pos).y +
    q.normal.z * (fluxField c i q.pos).z)).sum

end QuESo.Spec
