import Verif.Model.Mesh

/-!
# Model of views on triangle meshes

`queso/containers/triangle_mesh_view.hpp`, and the memory of `queso/containers/triangle_mesh.hpp` that views
refer to.
-/
namespace QuESo.MView

/-! ## Vectors with memory -/

/-- A `std::vector`: the block of memory in use (blocks are numbered in the order of their allocation), its
capacity and the elements. -/
structure Vec (α : Type _) where
  block : Nat := 0
  cap : Nat := 0
  data : List α := []
  deriving DecidableEq, Repr

/-- A `std::span` on the elements of a vector: the block and the number of elements at its creation. -/
structure Span where
  block : Nat
  len : Nat
  deriving DecidableEq, Repr

namespace Vec
variable {α : Type _}

/-- `std::vector::reserve`: a new block only if the capacity is too small. -/
def reserve (v : Vec α) (n : Nat) : Vec α := if v.cap < n then { v with block := v.block + 1, cap := n } else v

/-- `std::vector::push_back`: if the block is full, a new one with the capacity `grow n` is used.  `grow` is the
policy of the library (for libstdc++ the double). -/
def push (grow : Nat → Nat) (v : Vec α) (a : α) : Vec α :=
  if v.data.length < v.cap then { v with data := v.data ++ [a] }
  else { block := v.block + 1, cap := grow v.data.length, data := v.data ++ [a] }

/-- `std::vector::clear`: keeps the memory. -/
def clear (v : Vec α) : Vec α := { v with data := [] }

/-- `v[i] = v.back(); v.pop_back()` (triangle_mesh.hpp L91-94): keeps the memory (`none`: out of range). -/
def swapPop (v : Vec α) (i : Nat) : Option (Vec α) :=
  match v.data.getLast? with
  | some a => if i < v.data.length then some { v with data := (v.data.set i a).dropLast } else none
  | none => none

/-- The span on a vector, `std::span<const T> s = v`. -/
def span (v : Vec α) : Span := ⟨v.block, v.data.length⟩

/-- Reading through a span that was made of this vector earlier: `none` is undefined behaviour (out of the range
of the span, memory that is no longer in use, or an element that no longer exists). -/
def readSpan (v : Vec α) (s : Span) (i : Nat) : Option α :=
  if s.block = v.block ∧ i < s.len then v.data[i]? else none

/-- Reading an element by a reference to it that was made earlier (block and index): `none` is undefined behaviour. -/
def readRef (v : Vec α) (r : Nat × Nat) : Option α := if r.1 = v.block then v.data[r.2]? else none

end Vec

/-! ## The mesh with its memory -/

/-- The members of `TriangleMesh`, triangle_mesh.hpp L216-218. -/
structure MMesh (K : Type _) where
  vertices : Vec (V3 K) := {}
  triangles : Vec (V3 Nat) := {}
  normals : Vec (V3 K) := {}
  deriving DecidableEq, Repr

/-- The calls that change a mesh. -/
inductive Call (K : Type _)
  | reserve (n : Nat)
  | addVertex (v : V3 K)
  | addTriangle (t : V3 Nat) (normal : V3 K)
  | removeTriangle (tid : Nat)
  | clear

namespace MMesh
variable {K : Type _}

/-- What the mesh holds. -/
def mesh (m : MMesh K) : Mesh K := ⟨m.vertices.data, m.triangles.data, m.normals.data⟩

/-- One call: `Reserve` triangle_mesh.hpp L51-56, `AddVertex` L61-66, `AddTriangle` L71-75, `RemoveTriangle`
L88-95, `Clear` L78-83 (`none`: undefined behaviour). -/
def call (grow : Nat → Nat) (m : MMesh K) : Call K → Option (MMesh K)
  | .reserve n => some { triangles := m.triangles.reserve n, normals := m.normals.reserve n,
                         vertices := m.vertices.reserve ((n + 1) / 2) }
  | .addVertex v => some { m with vertices := m.vertices.push grow v }
  | .addTriangle t nrm => some { m with triangles := m.triangles.push grow t, normals := m.normals.push grow nrm }
  | .removeTriangle tid =>
    match m.triangles.swapPop tid, m.normals.swapPop tid with
    | some t, some n => some { m with triangles := t, normals := n }
    | _, _ => none
  | .clear => some { vertices := m.vertices.clear, triangles := m.triangles.clear, normals := m.normals.clear }

/-- A sequence of calls. -/
def calls (grow : Nat → Nat) (m : MMesh K) (cs : List (Call K)) : Option (MMesh K) := cs.foldlM (call grow) m

/-! ## Views on meshes of this library -/

/-- `TriangleMesh::View`, triangle_mesh_view.hpp L81-87: of the view of a mesh of this library the span on the
normals is the only part that depends on the contents; the mesh itself is known by its address. -/
def view (m : MMesh K) : Span := m.normals.span

/-- `TriangleMeshView::NumOfTriangles`, triangle_mesh_view.hpp L115-116: asks the mesh. -/
def viewNum (m : MMesh K) : Nat := m.mesh.triangles.length

/-- `TriangleMeshView::Triangle<WithoutNormals>`, triangle_mesh_view.hpp L123-128: asks the mesh. -/
def viewCorners (m : MMesh K) (tid : Nat) : Option (V3 (V3 K)) := m.mesh.corners tid

/-- `TriangleMeshView::Triangle<WithNormals>`, triangle_mesh_view.hpp L123-133, for a view made earlier: corners from the
mesh, the normal from the span of the view. -/
def viewTriangle (m : MMesh K) (v : Span) (tid : Nat) : Option (Tri K) :=
  match m.mesh.corners tid, m.normals.readSpan v tid with
  | some c, some nrm => some ⟨c.x, c.y, c.z, nrm⟩
  | _, _ => none

/-- `TriangleMeshView::Triangles<WithNormals>(indices)`, triangle_mesh_view.hpp L152-169: as `Triangle`. -/
def viewTriangles (m : MMesh K) (v : Span) (is : List Nat) : Option (List (Tri K)) := is.mapM (m.viewTriangle v)

/-- `TriangleMeshView::Visit<WithNormals>(indices, f)`, triangle_mesh_view.hpp L188-194 with `VisitDispatch` L240-248 and
`TriangleMesh::Triangles` triangle_mesh.hpp L157-176: the triangles handed to the callback are read from the mesh, with
spans made at this moment. -/
def viewVisit (m : MMesh K) (is : List Nat) : Option (List (Tri K)) :=
  is.mapM fun i =>
    match m.triangles.readSpan m.triangles.span i with
    | none => none
    | some t =>
      match m.vertices.readSpan m.vertices.span t.x, m.vertices.readSpan m.vertices.span t.y,
        m.vertices.readSpan m.vertices.span t.z, m.normals.readSpan m.normals.span i with
      | some a, some b, some c, some nrm => some ⟨a, b, c, nrm⟩
      | _, _, _, _ => none

/-! ## Triangle objects -/

/-- `TriangleProxy<WithNormals>`, triangle_proxies.hpp L41-48: references to the corners and to the normal. -/
structure Proxy where
  p1 : Nat × Nat
  p2 : Nat × Nat
  p3 : Nat × Nat
  normal : Nat × Nat
  deriving DecidableEq, Repr

/-- `TriangleMesh::Triangle<WithNormals>`, triangle_mesh.hpp L113-124: the object that is handed out (`none`: out of range). -/
def proxy (m : MMesh K) (tid : Nat) : Option Proxy :=
  match m.triangles.data[tid]? with
  | none => none
  | some t =>
    if t.x < m.vertices.data.length ∧ t.y < m.vertices.data.length ∧ t.z < m.vertices.data.length ∧ tid < m.normals.data.length then
      some ⟨(m.vertices.block, t.x), (m.vertices.block, t.y), (m.vertices.block, t.z), (m.normals.block, tid)⟩
    else none

/-- Reading the corners and the normal of a triangle object (`p1`, `p2`, `p3`, `normal` in Python,
add_containers_to_python.cpp L105-108) that was handed out earlier. -/
def readProxy (m : MMesh K) (p : Proxy) : Option (Tri K) :=
  match m.vertices.readRef p.p1, m.vertices.readRef p.p2, m.vertices.readRef p.p3, m.normals.readRef p.normal with
  | some a, some b, some c, some nrm => some ⟨a, b, c, nrm⟩
  | _, _, _, _ => none

/-! ## Appending a mesh to itself

(`MeshUtil.append` is the model for two different meshes.) -/

/-- First loop of `Append`, mesh_utilities.cpp L104-106, if the source is the mesh itself: the span `s` was made before the
first vertex is added (`none`: undefined behaviour). -/
def appendVerticesSelf (grow : Nat → Nat) (s : Span) (v : Vec (V3 K)) : List Nat → Option (Vec (V3 K))
  | [] => some v
  | i :: is =>
    match v.readSpan s i with
    | none => none
    | some a => appendVerticesSelf grow s (v.push grow a) is

/-- Second loop of `Append`, mesh_utilities.cpp L108-118, if the source is the mesh itself: the spans `st` and `sn` were made before the first triangle is added. -/
def appendTrianglesSelf (grow : Nat → Nat) (offset : Nat) (st sn : Span) (m : MMesh K) : List Nat → Option (MMesh K)
  | [] => some m
  | i :: is =>
    match m.triangles.readSpan st i, m.normals.readSpan sn i with
    | some t, some nrm => appendTrianglesSelf grow offset st sn
        { m with triangles := m.triangles.push grow ⟨t.x + offset, t.y + offset, t.z + offset⟩,
                 normals := m.normals.push grow nrm } is
    | _, _ => none

/-- `Append(mesh, mesh)`, mesh_utilities.cpp L98-119 (`none`: undefined behaviour). -/
def appendSelf (grow : Nat → Nat) (m : MMesh K) : Option (MMesh K) :=
  let n := m.triangles.data.length + m.triangles.data.length
  let offset := m.vertices.data.length
  let v := m.vertices.reserve ((n + 1) / 2)
  match appendVerticesSelf grow v.span v (List.range v.data.length) with
  | none => none
  | some vs =>
    let m1 : MMesh K := { vertices := vs, triangles := m.triangles.reserve n, normals := m.normals.reserve n }
    appendTrianglesSelf grow offset m1.triangles.span m1.normals.span m1 (List.range m1.triangles.data.length)

end MMesh

/-! ## Calling back for each triangle -/

/-- The loop of `VisitEachTriangle`, triangle_mesh_view.hpp L214-226: `cb` is the callback with its state; `true` is
`VisitToken::stop_loop`.  `get` reads a triangle (`none`: undefined behaviour). -/
def eachTriangle {S T : Type _} (get : Nat → Option T) (cb : S → T → S × Bool) : List Nat → S → Option S
  | [], s => some s
  | i :: is, s =>
    match get i with
    | none => none
    | some t => if (cb s t).2 then some (cb s t).1 else eachTriangle get cb is (cb s t).1

/-! ## Views on other meshes -/

/-- A mesh type of another library with the two functions of its binding (triangle_mesh_view.hpp L99-101): number of triangles and
corners of a triangle in a state of the mesh (`none`: undefined behaviour). -/
structure Foreign (F K : Type _) where
  num : F → Nat
  corners : F → Nat → Option (V3 (V3 K))

namespace Foreign
variable {F K : Type _}

/-- The constructor for meshes of another type, triangle_mesh_view.hpp L101-108, with `PopulateNormals` L251-259: the
normals are computed once. `normal` is `TriangleUtilities::Normal`. -/
def view (b : Foreign F K) (normal : V3 (V3 K) → V3 K) (f : F) : Option (List (V3 K)) :=
  eachTriangle (b.corners f) (fun ns c => (ns ++ [normal c], false)) (List.range (b.num f)) []

/-- `Triangle<WithNormals>`, triangle_mesh_view.hpp L123-133, in the state `f` with the normals of the view. -/
def viewTriangle (b : Foreign F K) (ns : List (V3 K)) (f : F) (tid : Nat) : Option (Tri K) :=
  match b.corners f tid, ns[tid]? with
  | some c, some nrm => some ⟨c.x, c.y, c.z, nrm⟩
  | _, _ => none

/-- `Visit<WithNormals>(indices, f)`, triangle_mesh_view.hpp L188-194 with `VisitDispatch` L240-248: the same for all indices. -/
def viewVisit (b : Foreign F K) (ns : List (V3 K)) (f : F) (is : List Nat) : Option (List (Tri K)) :=
  is.mapM (b.viewTriangle ns f)

end Foreign

/-! ## Access from Python -/

/-- `TriangleMesh.AddTriangle` of the Python module, add_containers_to_python.cpp L198-207: the corners are read without a
check (`none`: undefined behaviour), the normal is computed. -/
def pyAddTriangle {K : Type _} (normal : V3 (V3 K) → V3 K) (m : Mesh K) (t : V3 Nat) : Option (Mesh K) :=
  match m.vertices[t.x]?, m.vertices[t.y]?, m.vertices[t.z]? with
  | some a, some b, some c => some (m.addTriangle t (normal ⟨a, b, c⟩))
  | _, _, _ => none

/-- One step of `TriangleIterator.__next__`, add_containers_to_python.cpp L86-91: `none` is the end of the iteration, the
inner `none` undefined behaviour; the index is advanced. -/
def pyNext {K : Type _} (m : Mesh K) (i : Nat) : Option (Option (Tri K)) × Nat :=
  if m.triangles.length ≤ i then (none, i) else (some (m.triangle i), i + 1)

/-- `for t in mesh.Triangles(): body` in Python: in each step the body may change the mesh.  The body gets the state of the
program and the triangle; `fuel` bounds the number of steps (result `none`: out of fuel or undefined behaviour). -/
def pyLoop {K S : Type _} (body : Mesh K → S → Tri K → Mesh K × S) : Nat → Nat → Mesh K → S → Option (Mesh K × S)
  | 0, _, _, _ => none
  | fuel + 1, i, m, s =>
    match pyNext m i with
    | (none, _) => some (m, s)
    | (some none, _) => none
    | (some (some t), j) => pyLoop body fuel j (body m s t).1 (body m s t).2

/-- `IntegrationPoint.__getitem__`, add_containers_to_python.cpp L130-136 (also L159-166 for points of boundaries): negative
indices count from the end; `none` is the `IndexError`. -/
def pyPointItem {K : Type _} (p : V3 K) (i : Int) : Option K :=
  let j := if i < 0 then i + 3 else i
  if j < 0 ∨ 3 ≤ j then none else some (p.get j.toNat)

/-- Results of the access to a condition segment. -/
inductive Item (α : Type _)
  | value (a : α)
  | typeError
  | ub
  deriving DecidableEq, Repr

/-- `ConditionSegmentVector.__getitem__`, add_containers_to_python.cpp L249-250: the index must be convertible to an unsigned
number, and is not checked. -/
def pySegmentItem {α : Type _} (l : List α) (i : Int) : Item α :=
  if i < 0 then .typeError
  else match l[i.toNat]? with
    | some a => .value a
    | none => .ub

end QuESo.MView
