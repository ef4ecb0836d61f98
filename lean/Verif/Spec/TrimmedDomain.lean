import Verif.Model.TrimmedDomain
import Verif.Spec.Trim
import Verif.Spec.Surface
import Verif.Spec.PlaneDomain

/-!
# What the closed boundary of a trimmed cell should be
-/
namespace QuESo.Domain
open QuESo.Spec
variable {K : Type} [Field K] [LinearOrder K]

/-- What is known about the library functions and the constants. -/
structure Env.Sound (E : Env K) : Prop where
  zt_pos : 0 < E.zt
  snaptol_pos : 0 < E.snaptol
  bal : ∀ t, (E.bal t).toList = t.toList
  sortE : ∀ vs es, (E.sortE vs es).Perm es
  sortP : ∀ ps, (E.sortP ps).Perm ps
  sortP_sorted : ∀ ps, (E.sortP ps).Pairwise (fun a b => a.x ≤ b.x)

/-- The unit vector that points out of the cell at its lower or upper face in a direction (0, 1, 2 for x, y, z). -/
def outwardOf (direction : Nat) (upper : Bool) : V3 K :=
  let s : K := if upper then 1 else -1
  match direction with
  | 0 => ⟨s, 0, 0⟩
  | 1 => ⟨0, s, 0⟩
  | _ => ⟨0, 0, s⟩

/-- The point is exactly in the plane of the lower or upper face in a direction. -/
def InFacePlane (lo up : V3 K) (direction : Nat) (upper : Bool) (q : V3 K) : Prop :=
  let c := if upper then up else lo
  match direction with
  | 0 => q.x = c.x
  | 1 => q.y = c.y
  | _ => q.z = c.z

/-- Triangles that may close a cell at a face: they lie in the plane of the face and, up to the tolerance, in the cell,
and their normal points out of the cell. -/
def IsCap (lo up : V3 K) (tol : K) (f : Nat × Bool) (ts : List (Tri K)) : Prop :=
  ∀ t ∈ ts, t.normal = outwardOf f.1 f.2 ∧ ∀ v ∈ [t.p1, t.p2, t.p3], InFacePlane lo up f.1 f.2 v ∧ InBoxTol lo up tol v

/-- The six faces of a cell: direction, and whether it is the upper one. -/
def sixFaces : List (Nat × Bool) := [(0, false), (0, true), (1, false), (1, true), (2, false), (2, true)]

/-- The edges recorded on the face with index `k` (in the order -x, x, -y, y, -z, z): ends and normal of the triangle. -/
def FaceEdges (m : Clip.ClippedMesh K) (k : Nat) (es : List (Plane.Given K)) : Prop :=
  List.Forall₂ (fun (r : Nat × Nat × Nat) (e : Plane.Given K) =>
    m.mesh.vertices[r.1]? = some e.1 ∧ m.mesh.vertices[r.2.1]? = some e.2.1 ∧ m.mesh.normals[r.2.2]? = some e.2.2) (m.edges k) es

/-- The set-up for one face of the cell: its direction and side, the box, the constants, and the inside test of the clipped
mesh in the box. -/
structure Env.SetUp (E : Env K) (m : Mesh K) (lo up : V3 K) (f : Nat × Bool) (P : Plane.Params K) : Prop where
  sound : P.Sound
  axes : P.Axes
  direction : P.d3 = f.1
  side : P.upper = f.2
  lower : P.lo = lo
  upper : P.up = up
  zt : P.zt = E.zt
  maxd : P.maxd = E.maxd
  tol : P.tol = max (max (up.x - lo.x) (max (up.y - lo.y) (up.z - lo.z)) * E.snaptol) E.snaptol
  inside : P.inside = E.inside m lo up

/-- The cap of a face is what the cut of the solid with the face gives for the edges recorded on this face. -/
def Env.CapOf (E : Env K) (clipped : Clip.ClippedMesh K) (lo up : V3 K) (f : Nat × Bool) (ts : List (Tri K)) : Prop :=
  ∃ P es c, E.SetUp clipped.mesh lo up f P ∧ FaceEdges clipped (2 * f.1 + f.2.toNat) es ∧ P.run es = .ok c ∧ c.mesh.visit = some ts

/-- The closed mesh consists of the clipped surface and one cap for each face of the cell, all of them possibly divided into
smaller triangles until there are `n`. -/
structure Env.IsClosing (E : Env K) (n : Nat) (lo up : V3 K) (clipped : Clip.ClippedMesh K) (closed : Mesh K) : Prop where
  valid : closed.check = true
  parts : ∃ ts caps ts', clipped.mesh.visit = some ts ∧ closed.visit = some ts' ∧
    List.Forall₂ (fun f cap => IsCap lo up (10 * E.zt) f cap ∧ E.CapOf clipped lo up f cap) sixFaces caps ∧
    RefinementOf (ts ++ caps.flatten) ts' ∧
    (n ≤ ts'.length ∨ ∀ t ∈ ts', E.norm (triangleArea2 t.p1 t.p2 t.p3) / 2 ≤ E.zt)

/-- The recorded edges of a clipped mesh: the two ends are vertices of the mesh, on the face up to the tolerance and
in the box up to the tolerance, and the edge belongs to a triangle. -/
structure EdgesOk (zt : K) (lo up : V3 K) (m : Clip.ClippedMesh K) : Prop where
  valid : m.mesh.check = true
  edges : ∀ k, ∀ e ∈ m.edges k, ∃ a b, m.mesh.vertices[e.1]? = some a ∧ m.mesh.vertices[e.2.1]? = some b ∧
    e.2.2 < m.mesh.triangles.length ∧ (OnFace lo up (10 * zt) k a ∧ OnFace lo up (10 * zt) k b) ∧
    InBoxTol lo up (10 * zt) a ∧ InBoxTol lo up (10 * zt) b

end QuESo.Domain
