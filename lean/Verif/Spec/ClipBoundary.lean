import Verif.Model.Clipper
import Verif.Spec.Surface

/-!
# Specification vocabulary for the boundary of a clipped surface
-/
namespace QuESo.Spec
open QuESo.Clip
variable {K : Type} [Field K] [LinearOrder K]

/-- The edge from the vertex `a` to the vertex `b` of the triangle `i` is recorded on one of the six faces. -/
def Recorded (m : ClippedMesh K) (i a b : Nat) : Prop := ∃ k < 6, (a, b, i) ∈ m.edges k

instance (m : ClippedMesh K) (i a b : Nat) : Decidable (Recorded m i a b) :=
  decidable_of_iff (∃ k ∈ List.range 6, (a, b, i) ∈ m.edges k) (by simp [Recorded])

/-- The three directed edges of the triangle `i`, as pairs of vertex numbers. -/
def indexEdgesAt (m : Mesh K) (i : Nat) : List (Nat × Nat) :=
  match m.triangles[i]? with
  | some t => [(t.x, t.y), (t.y, t.z), (t.z, t.x)]
  | none => []

/-- The end points of an edge. -/
def endPoints (m : Mesh K) (e : Nat × Nat) : List (V3 K × V3 K) :=
  match m.vertices[e.1]?, m.vertices[e.2]? with
  | some a, some b => [(a, b)]
  | _, _ => []

/-- The directed edges of the triangles that are not recorded on any face, as pairs of points. -/
def looseEdges (m : ClippedMesh K) : List (V3 K × V3 K) :=
  (List.range m.mesh.triangles.length).flatMap fun i =>
    ((indexEdgesAt m.mesh i).filter fun e => ¬ Recorded m i e.1 e.2).flatMap (endPoints m.mesh)

/-- The directed edges of the triangles that are recorded on some face, each of them once, as pairs of points. -/
def cutEdges (m : ClippedMesh K) : List (V3 K × V3 K) :=
  (List.range m.mesh.triangles.length).flatMap fun i =>
    ((indexEdgesAt m.mesh i).filter fun e => Recorded m i e.1 e.2).flatMap (endPoints m.mesh)

/-- Every edge is used in one direction as often as in the other one. -/
def BothWays (es : List (V3 K × V3 K)) : Prop := es.Perm (es.map Prod.swap)

/-- The box decides clearly about the triangle: some point of it is in the box and away from the faces, or no point of it is in
the box, not even up to the tolerance. -/
def Decided (zt depth : K) (lo up : V3 K) (t : Tri K) : Prop :=
  (∃ q, InTriangle t.p1 t.p2 t.p3 q ∧ InBoxTol lo up (-depth) q) ∨ ∀ q, InTriangle t.p1 t.p2 t.p3 q → ¬ InBoxTol lo up (10 * zt) q

/-- The sum of `a × b` over directed edges. -/
def circulation (es : List (V3 K × V3 K)) : V3 K :=
  sumV (es.map fun e => ⟨e.1.y * e.2.z - e.1.z * e.2.y, e.1.z * e.2.x - e.1.x * e.2.z, e.1.x * e.2.y - e.1.y * e.2.x⟩)

end QuESo.Spec
