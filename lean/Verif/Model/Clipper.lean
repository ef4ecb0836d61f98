import Verif.Model.Vector
import Verif.Model.Mesh

/-!
# Clipping a triangle by a box

Models `queso/embedding/clipper.h`, `queso/embedding/clipper.cpp`, `queso/embedding/polygon.h` and
`queso/embedding/polygon.cpp` over an exact ordered field (no rounding).
-/
namespace QuESo.Clip
variable {K : Type _} [Field K] [LinearOrder K]

/-- `Polygon::VertexType`, polygon.h L44: a point and the six flags "lies on plane" in the order
(-x, x, -y, y, -z, z).  Simplification: the array of six flags is a function. -/
structure Vtx (K : Type _) where
  pt : V3 K
  on : Nat → Bool

/-- The capacity of the polygon used by the clipper, `Polygon<9>`, clipper.h L40. -/
def capacity : Nat := 9

/-- `Polygon::AddVertex`, polygon.cpp L22-47 (the three overloads); `none` is the error "Size of Polygon is
exceeded". -/
def addVertex (p : List (Vtx K)) (v : Vtx K) : Option (List (Vtx K)) :=
  if p.length ≥ capacity then none else some (p ++ [v])

/-- `Polygon::SetIndexOnPlane`, polygon.h L77-79, applied to the vertex that is added: the clipper calls it
directly after `AddVertex` with the index that `AddVertex` returned. -/
def Vtx.set (v : Vtx K) (k : Nat) : Vtx K := ⟨v.pt, fun j => if j = k then true else v.on j⟩

/-- `Clipper::Plane`, clipper.h L68-94. -/
structure Plane (K : Type _) where
  index : Nat
  position : K

/-- `Clipper::Side`, clipper.h L42. -/
inductive Side | front | behind | on
  deriving DecidableEq

/-- `Clipper::ClassifyPointToPlane`, clipper.cpp L176-194. -/
def classify (p : V3 K) (pl : Plane K) (eps : K) : Side :=
  let i := pl.index / 2
  let dist := if pl.index % 2 = 0 then pl.position - p.get i else p.get i - pl.position
  if dist > eps then .front else if dist < -eps then .behind else .on

/-- `Clipper::FindIntersectionPointOnPlane`, clipper.cpp L196-221; `none` is the error "No valid
intersection".  `zt` is `ZEROTOL`. -/
def intersection (zt : K) (a b : V3 K) (pl : Plane K) : Option (V3 K) :=
  let i := pl.index / 2
  let t := (pl.position - a.get i) / (b.get i - a.get i)
  if 0 ≤ t ∧ t ≤ 1 then
    let r : V3 K := ⟨a.x + t * (b.x - a.x), a.y + t * (b.y - a.y), a.z + t * (b.z - a.z)⟩
    if classify r pl zt ≠ .on then some (r.set i pl.position) else some r
  else none

/-- The new vertex on the plane, clipper.cpp L117-124 and L139-145: it lies on an earlier plane if both ends
of the edge do. -/
def crossing (zt : K) (a b : Vtx K) (pl : Plane K) : Option (Vtx K) :=
  (intersection zt a.pt b.pt pl).map fun r =>
    Vtx.set ⟨r, fun j => decide (j < pl.index) && (a.on j && b.on j)⟩ pl.index

/-- One pass of the loop of `Clipper::ClipPolygonByPlane`, clipper.cpp L112-171, for the edge from `a` to `b`.
`cur` is the output polygon; `10 * zt` is the default tolerance `10.0*ZEROTOL`, clipper.h L113. -/
def clipStep (zt : K) (pl : Plane K) (a b : Vtx K) (cur : List (Vtx K)) : Option (List (Vtx K)) :=
  match classify b.pt pl (10 * zt), classify a.pt pl (10 * zt) with
  | .front, .behind => (crossing zt a b pl).bind fun m => addVertex cur m
  | .front, _ => some cur
  | .on, .behind => addVertex cur (b.set pl.index)
  | .on, _ => some cur
  | .behind, .front => (crossing zt a b pl).bind fun m => (addVertex cur m).bind fun c => addVertex c b
  | .behind, .on => (addVertex cur (a.set pl.index)).bind fun c => addVertex c b
  | .behind, .behind => addVertex cur b

/-- The loop of `Clipper::ClipPolygonByPlane`, clipper.cpp L110-173. -/
def clipLoop (zt : K) (pl : Plane K) : Vtx K → List (Vtx K) → List (Vtx K) → Option (List (Vtx K))
  | _, [], cur => some cur
  | a, b :: rest, cur => (clipStep zt pl a b cur).bind fun c => clipLoop zt pl b rest c

/-- `Clipper::ClipPolygonByPlane`, clipper.cpp L92-174. -/
def clipPlane (zt : K) (pl : Plane K) (prev : List (Vtx K)) : Option (List (Vtx K)) :=
  match prev.getLast? with
  | none => some []
  | some a => clipLoop zt pl a prev []

/-- The plane with the given index of a box, clipper.cpp L41-42 and L75-84. -/
def plane (lo up : V3 K) (k : Nat) : Plane K :=
  ⟨k, if k % 2 = 0 then lo.get (k / 2) else up.get (k / 2)⟩

/-- The two clips of one dimension, clipper.cpp L71-86. -/
def clipDim (zt : K) (lo up mn mx : V3 K) (d : Nat) (poly : List (Vtx K)) : Option (List (Vtx K)) :=
  (if mx.get d > lo.get d then clipPlane zt (plane lo up (2 * d)) poly else some poly).bind fun p =>
    if mn.get d < up.get d then clipPlane zt (plane lo up (2 * d + 1)) p else some p

/-- A triangle vertex without flags, clipper.cpp L66-68. -/
def bare (p : V3 K) : Vtx K := ⟨p, fun _ => false⟩

/-- The corners of the bounding box of the triangle, clipper.cpp L54-63. -/
def triMin (p1 p2 p3 : V3 K) : V3 K :=
  ⟨min (min p1.x p2.x) p3.x, min (min p1.y p2.y) p3.y, min (min p1.z p2.z) p3.z⟩

/-- The corners of the bounding box of the triangle, clipper.cpp L54-63. -/
def triMax (p1 p2 p3 : V3 K) : V3 K :=
  ⟨max (max p1.x p2.x) p3.x, max (max p1.y p2.y) p3.y, max (max p1.z p2.z) p3.z⟩

/-- The triangle lies on one of the six planes, clipper.cpp L37-51. -/
def aligned (zt : K) (p1 p2 p3 lo up : V3 K) : Bool :=
  (List.range 6).any fun k =>
    decide (classify p1 (plane lo up k) (10 * zt) = .on) && decide (classify p2 (plane lo up k) (10 * zt) = .on) &&
      decide (classify p3 (plane lo up k) (10 * zt) = .on)

/-- What `ClipTriangle` gives: an error is thrown, a null pointer, or a polygon. -/
inductive Out (K : Type _)
  | error
  | null
  | poly (p : List (Vtx K))

/-- `Clipper::ClipTriangle`, clipper.cpp L25-90.  The normal, which is copied to the polygon, is not part of
the list of vertices (see `addToMesh`). -/
def clipTriangle (zt : K) (p1 p2 p3 lo up : V3 K) : Out K :=
  if aligned zt p1 p2 p3 lo up then .null
  else
    let mn := triMin p1 p2 p3
    let mx := triMax p1 p2 p3
    match (((some [bare p1, bare p2, bare p3]).bind (clipDim zt lo up mn mx 0)).bind
        (clipDim zt lo up mn mx 1)).bind (clipDim zt lo up mn mx 2) with
    | none => .error
    | some p => .poly p

/-- `ClippedTriangleMesh`, `queso/containers/clipped_triangle_mesh.hpp` L60-215: a mesh and, for each of the
six planes, edges given by two vertex indices and a triangle index. -/
structure ClippedMesh (K : Type _) where
  mesh : Mesh K
  edges : Nat → List (Nat × Nat × Nat)

/-- `AddEdgeOnPlane`, clipped_triangle_mesh.hpp L180-184. -/
def ClippedMesh.addEdge (m : ClippedMesh K) (k v1 v2 t : Nat) : ClippedMesh K :=
  ⟨m.mesh, fun j => if j = k then m.edges j ++ [(v1, v2, t)] else m.edges j⟩

/-- Three calls of `AddVertex` and one of `AddTriangle`, polygon.cpp L88-92, L125-129 and L144-148. -/
def ClippedMesh.addTri (m : ClippedMesh K) (a b c normal : V3 K) : ClippedMesh K :=
  let n := m.mesh.vertices.length
  ⟨(((m.mesh.addVertex a).addVertex b).addVertex c).addTriangle ⟨n, n + 1, n + 2⟩ normal, m.edges⟩

/-- The loop over the planes for a single triangle, polygon.cpp L96-114; `none` is the error "All vertices are
set on plane". -/
def edgesOfTriangle (v1 v2 v3 : Vtx K) (nv nt : Nat) (m : ClippedMesh K) : Option (ClippedMesh K) :=
  (List.range 6).foldlM (fun m k =>
    if v1.on k ∧ v2.on k ∧ v3.on k then none
    else if v1.on k ∧ v2.on k then some (m.addEdge k nv (nv + 1) nt)
    else if v2.on k ∧ v3.on k then some (m.addEdge k (nv + 1) (nv + 2) nt)
    else if v3.on k ∧ v1.on k then some (m.addEdge k (nv + 2) nv nt)
    else some m) m

/-- The loop over the planes for one edge of the polygon, polygon.cpp L131-138 and L150-157. -/
def edgesOfPair (a b : Vtx K) (nv nt : Nat) (m : ClippedMesh K) : ClippedMesh K :=
  (List.range 6).foldl (fun m k => if a.on k ∧ b.on k then m.addEdge k nv (nv + 1) nt else m) m

/-- The mean of the vertices, polygon.cpp L118-123. -/
def centroid (p : List (Vtx K)) : V3 K :=
  let s := p.foldl (fun s v => s + v.pt) (⟨0, 0, 0⟩ : V3 K)
  ⟨s.x / p.length, s.y / p.length, s.z / p.length⟩

/-- The triangle of one edge of the polygon and the centroid, polygon.cpp L124-141 and L144-157. -/
def addFan (c normal : V3 K) (a b : Vtx K) (m : ClippedMesh K) : ClippedMesh K :=
  edgesOfPair a b m.mesh.vertices.length m.mesh.triangles.length (m.addTri a.pt b.pt c normal)

/-- The loop over the edges of the polygon, polygon.cpp L124-141 followed by the closing edge L144-157:
`first` is the first vertex of the polygon. -/
def fanLoop (c normal : V3 K) (first : Vtx K) : List (Vtx K) → ClippedMesh K → ClippedMesh K
  | [], m => m
  | [a], m => addFan c normal a first m
  | a :: b :: rest, m => fanLoop c normal first (b :: rest) (addFan c normal a b m)

/-- `Polygon::AddToTriangleMesh`, polygon.cpp L79-161; `none` is an error. -/
def addToMesh (p : List (Vtx K)) (normal : V3 K) (m : ClippedMesh K) : Option (ClippedMesh K) :=
  match p with
  | [] => some m
  | [_] => some m
  | [_, _] => some m
  | [a, b, c] =>
    edgesOfTriangle a b c m.mesh.vertices.length m.mesh.triangles.length (m.addTri a.pt b.pt c.pt normal)
  | a :: rest => some (fanLoop (centroid p) normal a (a :: rest) m)

end QuESo.Clip
