import Verif.Model.Basic

/-!
# Model of the triangle mesh container

`queso/containers/triangle_mesh.hpp`.
-/
namespace QuESo

/-- `TriangleMesh`, triangle_mesh.hpp L216-218: vertices, index triples and normals. -/
structure Mesh (K : Type _) where
  vertices : List (V3 K)
  triangles : List (V3 Nat)
  normals : List (V3 K)
  deriving DecidableEq, Repr

/-- `TriangleProxy<WithNormals>`: corner coordinates and normal. -/
structure Tri (K : Type _) where
  p1 : V3 K
  p2 : V3 K
  p3 : V3 K
  normal : V3 K
  deriving DecidableEq, Repr

namespace Mesh
variable {K : Type _}

/-- New mesh, also `Clear()`, triangle_mesh.hpp L77-82. -/
def empty : Mesh K := ⟨[], [], []⟩

/-- `AddVertex`, triangle_mesh.hpp L60-65. -/
def addVertex (m : Mesh K) (v : V3 K) : Mesh K := { m with vertices := m.vertices ++ [v] }

/-- `AddTriangle`, triangle_mesh.hpp L70-74. -/
def addTriangle (m : Mesh K) (t : V3 Nat) (nrm : V3 K) : Mesh K :=
  { m with triangles := m.triangles ++ [t], normals := m.normals ++ [nrm] }

/-- `RemoveTriangle`, triangle_mesh.hpp L88-95: `none` is the access outside the vectors. -/
def removeTriangle (m : Mesh K) (tid : Nat) : Option (Mesh K) :=
  match m.triangles.getLast?, m.normals.getLast? with
  | some t, some nrm =>
    if tid < m.triangles.length ∧ tid < m.normals.length then
      some { m with triangles := (m.triangles.set tid t).dropLast, normals := (m.normals.set tid nrm).dropLast }
    else none
  | _, _ => none

/-- `Triangle<WithoutNormals>`, triangle_mesh.hpp L113-124 with the corners only (`none`: out of range). -/
def corners (m : Mesh K) (tid : Nat) : Option (V3 (V3 K)) :=
  match m.triangles[tid]? with
  | none => none
  | some t =>
    match m.vertices[t.x]?, m.vertices[t.y]?, m.vertices[t.z]? with
    | some a, some b, some c => some ⟨a, b, c⟩
    | _, _, _ => none

/-- `Triangle<WithNormals>`, triangle_mesh.hpp L113-124 (`none`: out of range). -/
def triangle (m : Mesh K) (tid : Nat) : Option (Tri K) :=
  match m.corners tid, m.normals[tid]? with
  | some c, some nrm => some ⟨c.x, c.y, c.z, nrm⟩
  | _, _ => none

/-- `VisitEachTriangle<WithNormals>`, triangle_mesh_view.hpp: all triangles in order. -/
def visit (m : Mesh K) : Option (List (Tri K)) := (List.range m.triangles.length).mapM m.triangle

/-- `Check`, triangle_mesh.hpp L200-211 (`false`: error). -/
def check (m : Mesh K) : Bool :=
  decide (m.triangles.length = m.normals.length) &&
    m.triangles.all (fun t => decide (t.x < m.vertices.length) && decide (t.y < m.vertices.length) && decide (t.z < m.vertices.length))

end Mesh
end QuESo
