import Verif.Model.AABBTree
import Verif.Model.Mesh
import Verif.Model.Clipper

/-!
# Geometry queries

Models `queso/embedding/geometry_query.h/.cpp` and the constructor of `queso/embedding/aabb_tree.h` over an exact
ordered field `K` (no rounding).  `zt` is `ZEROTOL`, `maxd` is `MAXD` (and `-maxd` is `LOWESTD`).
-/
namespace QuESo.GQ
open QuESo.AABB QuESo.AABBTree
variable {K : Type} [Field K] [LinearOrder K]

/-- `TriangleMeshView::Triangle<WithoutNormals>`, triangle_mesh_view.hpp L117-128: an index out of range is an
access outside the vectors. -/
def cornersAt (m : Mesh K) (i : Nat) : Except Fault (V3 (V3 K)) :=
  match m.corners i with
  | none => .error .ub
  | some c => .ok c

/-- The bounds of one triangle, aabb_tree.h L57-70. -/
def triBox (c : V3 (V3 K)) : Box K := ⟨Clip.triMin c.x c.y c.z, Clip.triMax c.x c.y c.z⟩

/-- `GeometryQuery`: the mesh, the tree, the bounds of the tree and whether the mesh is closed,
geometry_query.h L112-116 and aabb_tree.h L108-109. -/
structure Query (K : Type) where
  mesh : Mesh K
  tree : Tree K
  lower : V3 K
  upper : V3 K
  closed : Bool

/-- The update of `mLowerBound`, aabb_tree.h L73, L76 and L79. -/
def lowerStep (l : V3 K) (b : Box K) : V3 K := ⟨min b.lower.x l.x, min b.lower.y l.y, min b.lower.z l.z⟩

/-- The update of `mUpperBound`, aabb_tree.h L74, L77 and L80. -/
def upperStep (u : V3 K) (b : Box K) : V3 K := ⟨max b.upper.x u.x, max b.upper.y u.y, max b.upper.z u.z⟩

/-- The triangles in order, aabb_tree.h L55. -/
def allCorners (m : Mesh K) : List Nat → Except Fault (List (V3 (V3 K)))
  | [] => .ok []
  | i :: rest =>
    match cornersAt m i with
    | .error e => .error e
    | .ok c =>
      match allCorners m rest with
      | .error e => .error e
      | .ok cs => .ok (c :: cs)

/-- Constructor, geometry_query.h L43-51 and aabb_tree.h L50-82.  Simplification: first all triangles are read, then
all boxes are inserted. -/
def Query.new (junk : Node K) (maxd : K) (m : Mesh K) (closed : Bool) : Except Fault (Query K) :=
  match allCorners m (List.range m.triangles.length) with
  | .error e => .error e
  | .ok cs =>
    match Tree.build junk (cs.map triBox) with
    | .error e => .error e
    | .ok t => .ok ⟨m, t, (cs.map triBox).foldl lowerStep ⟨maxd, maxd, maxd⟩,
        (cs.map triBox).foldl upperStep ⟨-maxd, -maxd, -maxd⟩, closed⟩

/-- `IsWithinBoundingBox`, geometry_query.cpp L23-25 and aabb_tree.cpp L20-32. -/
def Query.isWithinBoundingBox (g : Query K) (p : V3 K) : Bool :=
  if p.x < g.lower.x ∨ p.x > g.upper.x ∨ p.y < g.lower.y ∨ p.y > g.upper.y ∨ p.z < g.lower.z ∨ p.z > g.upper.z then false
  else true

/-- `RelativeSnapTolerance`, `queso/includes/core_definitions.hpp` L70-75. -/
def relativeSnapTolerance (lo up : V3 K) (tol : K) : K :=
  max (max (up.x - lo.x) (max (up.y - lo.y) (up.z - lo.z)) * tol) tol

/-- The loop of `DoIntersect`, geometry_query.cpp L42-48. -/
def doIntersectLoop (m : Mesh K) (aabb : Box K) (tol : K) : List Nat → Except Fault Bool
  | [] => .ok false
  | i :: rest =>
    match cornersAt m i with
    | .error e => .error e
    | .ok c => if intersectTri aabb c.x c.y c.z tol then .ok true else doIntersectLoop m aabb tol rest

/-- `DoIntersect`, geometry_query.cpp L35-50. -/
def Query.doIntersect (g : Query K) (lo up : V3 K) (tolerance : K) : Except Fault Bool :=
  match mk? lo up with
  | none => .error .error
  | some aabb =>
    match g.tree.query (fun b => intersectBox aabb b) with
    | .error e => .error e
    | .ok ids => doIntersectLoop g.mesh aabb (relativeSnapTolerance lo up tolerance) ids

/-- The loop of `GetIntersectedTriangleIds`, geometry_query.cpp L62-68. -/
def intersectedLoop (m : Mesh K) (aabb : Box K) (tol : K) : List Nat → Except Fault (List Nat)
  | [] => .ok []
  | i :: rest =>
    match cornersAt m i with
    | .error e => .error e
    | .ok c =>
      match intersectedLoop m aabb tol rest with
      | .error e => .error e
      | .ok ids => .ok (if intersectTri aabb c.x c.y c.z tol then i :: ids else ids)

/-- `GetIntersectedTriangleIds`, geometry_query.cpp L52-71. -/
def Query.intersectedTriangleIds (g : Query K) (lo up : V3 K) (tolerance : K) : Except Fault (List Nat) :=
  match mk? lo up with
  | none => .error .error
  | some aabb =>
    match g.tree.query (fun b => intersectBox aabb b) with
    | .error e => .error e
    | .ok ids => intersectedLoop g.mesh aabb tolerance ids

/-- `TriangleUtilities::Area(tri) > a` for `a ≥ 0`, `queso/utilities/triangle_utilities.hpp` L33-39.  Simplification:
both sides are squared to avoid the square root. -/
def areaGt (c : V3 (V3 K)) (a : K) : Bool :=
  let n := V3.cross (c.y - c.x) (c.z - c.x)
  decide (n.x * n.x + n.y * n.y + n.z * n.z > (2 * a) * (2 * a))

/-- The loop of `IsInsideClosed`, geometry_query.cpp L116-139, and the result L141-148.  `junk i` is the content of
the uninitialised variables `t`, `u`, `v` (L117) when triangle `i` is visited: the code reads them if the triangle is
parallel to the ray. -/
def closedLoop (zt : K) (junk : Nat → V3 K) (m : Mesh K) (r : Ray K) : List Nat → Nat → Except Fault (Bool × Bool)
  | [], count => .ok (decide (count % 2 = 1), true)
  | i :: rest, count =>
    match cornersAt m i with
    | .error e => .error e
    | .ok c =>
      let h := r.intersectTri zt c.x c.y c.z
      if areaGt c (100 * zt) && h.ret then
        let t := h.t.getD (junk i).x
        let u := h.u.getD (junk i).y
        let v := h.v.getD (junk i).z
        if t < zt then .ok (false, true)
        else if u < 0 + zt ∨ v < 0 + zt ∨ u + v > 1 - zt then .ok (false, false)
        else if h.parallel then .ok (false, false)
        else closedLoop zt junk m r rest (count + 1)
      else closedLoop zt junk m r rest count

/-- `IsInsideClosed`, geometry_query.cpp L110-149. -/
def Query.isInsideClosed (zt : K) (junk : Nat → V3 K) (g : Query K) (r : Ray K) : Except Fault (Bool × Bool) :=
  match g.tree.query (fun b => r.intersectBox b) with
  | .error e => .error e
  | .ok ids => closedLoop zt junk g.mesh r ids 0

/-- The loop of `IsInsideOpen`, geometry_query.cpp L79-101, and the result L103-107. -/
def openLoop (zt : K) (m : Mesh K) (r : Ray K) : List Nat → K → Bool → Except Fault (Bool × Bool)
  | [], _, isInside => .ok (isInside, true)
  | i :: rest, minDistance, isInside =>
    match cornersAt m i with
    | .error e => .error e
    | .ok c =>
      let h := r.intersectTri zt c.x c.y c.z
      match h.ret, h.parallel, h.t, h.u, h.v with
      | true, false, some t, some u, some v =>
        if t < zt then .ok (false, true)
        else if u < 0 + zt ∨ v < 0 + zt ∨ u + v > 1 - zt then .ok (false, false)
        else if t < minDistance then openLoop zt m r rest t h.backFacing
        else openLoop zt m r rest minDistance isInside
      | _, _, _, _, _ => openLoop zt m r rest minDistance isInside

/-- `IsInsideOpen`, geometry_query.cpp L73-108. -/
def Query.isInsideOpen (zt maxd : K) (g : Query K) (r : Ray K) : Except Fault (Bool × Bool) :=
  match g.tree.query (fun b => r.intersectBox b) with
  | .error e => .error e
  | .ok ids => openLoop zt g.mesh r ids maxd false

/-- `IsInside`, geometry_query.cpp L27-33: the pair (inside, success). -/
def Query.isInside (zt maxd : K) (junk : Nat → V3 K) (g : Query K) (r : Ray K) : Except Fault (Bool × Bool) :=
  if g.closed then g.isInsideClosed zt junk r else g.isInsideOpen zt maxd r

end QuESo.GQ
