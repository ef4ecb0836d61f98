import Verif.Model.PlaneDomain
import Verif.Model.MeshUtilities

/-!
# The closed boundary of a trimmed cell

Models the constructor of `queso/embedding/trimmed_domain.h`, the edges of `queso/containers/clipped_triangle_mesh.hpp`
and one attempt of `pGetTrimmedDomain` in `queso/embedding/brep_operator.cpp`, over an exact ordered field.
-/
namespace QuESo.Domain
open QuESo.AABBTree (Fault)
variable {K : Type} [Field K] [LinearOrder K]

/-- The constants `ZEROTOL`, `SNAPTOL`, `MAXD` and `EPS4` and what the code gets from elsewhere: `norm` is `Math::Norm`,
`inside` answers `IsInside` of the trimmed domain of a clipped mesh and box (it always answers, see C59),
`bal` rebalances sets, `sortE` and `sortP` are the calls of `std::sort`. -/
structure Env (K : Type) where
  zt : K
  snaptol : K
  maxd : K
  eps : K
  norm : V3 K → K
  inside : Mesh K → V3 K → V3 K → V3 K → Bool
  bal : Plane.Tree K → Plane.Tree K
  sortE : List (Plane.P2 K) → List (Plane.Edge K) → List (Plane.Edge K)
  sortP : List (Plane.P2 K) → List (Plane.P2 K)

/-- The constructor of `TrimmedDomainOnPlane`, trimmed_domain_on_plane.h L119-173, as called in trimmed_domain.h L71-88. -/
def Env.face (E : Env K) (clipped : Mesh K) (lo up : V3 K) (switch : Bool) (plane : Nat) (upper : Bool) :
    Except Fault (Plane.Params K) :=
  match Plane.dirs plane switch with
  | none => .error .error
  | some (d1, d2, d3) =>
    .ok ⟨d1, d2, d3, upper, switch, lo, up, GQ.relativeSnapTolerance lo up E.snaptol, E.zt, E.maxd, E.inside clipped lo up,
      E.bal, E.sortE, E.sortP⟩

/-- `ClippedTriangleMesh::Edges`, clipped_triangle_mesh.hpp L189-199: ends and normal of the edges on a plane (`none`: access
out of range). -/
def edgesOn (m : Clip.ClippedMesh K) (axis : Nat) : Option (List (V3 K × V3 K × V3 K)) :=
  (m.edges axis).mapM fun e =>
    match m.mesh.vertices[e.1]?, m.mesh.vertices[e.2.1]?, m.mesh.normals[e.2.2]? with
    | some a, some b, some n => some (a, b, n)
    | _, _, _ => none

/-- The triangulation of one face, trimmed_domain.h L91-96 with trimmed_domain_on_plane.h L191-195. -/
def Env.cap (E : Env K) (clipped : Clip.ClippedMesh K) (lo up : V3 K) (switch : Bool) (plane : Nat) (upper : Bool) :
    Except Fault (Mesh K) :=
  match E.face clipped.mesh lo up switch plane upper with
  | .error e => .error e
  | .ok P =>
    match edgesOn clipped P.axis with
    | none => .error .ub
    | some es =>
      match P.run es with
      | .error e => .error e
      | .ok m => .ok m.mesh

/-- The order in which the faces are triangulated and appended, trimmed_domain.h L91-96 and L103-108. -/
def faces : List (Nat × Bool) := [(0, false), (0, true), (1, false), (1, true), (2, false), (2, true)]

/-- All caps, trimmed_domain.h L91-96. -/
def Env.caps (E : Env K) (clipped : Clip.ClippedMesh K) (lo up : V3 K) (switch : Bool) : List (Nat × Bool) → Except Fault (List (Mesh K))
  | [] => .ok []
  | f :: rest =>
    match E.cap clipped lo up switch f.1 f.2 with
    | .error e => .error e
    | .ok m =>
      match E.caps clipped lo up switch rest with
      | .error e => .error e
      | .ok ms => .ok (m :: ms)

/-- The calls of `Append`, trimmed_domain.h L103-108. -/
def appendAll : List (Mesh K) → Mesh K → Except Fault (Mesh K)
  | [], m => .ok m
  | c :: rest, m =>
    match MeshUtil.append m c with
    | none => .error .ub
    | some m => appendAll rest m

/-- The constructor of `TrimmedDomain`, trimmed_domain.h L57-112: the closed mesh. -/
def Env.build (E : Env K) (clipped : Clip.ClippedMesh K) (lo up : V3 K) (minTriangles : Nat) (switch : Bool) : Except Fault (Mesh K) :=
  if clipped.mesh.triangles.length ≠ 0 then
    match E.caps clipped lo up switch faces with
    | .error e => .error e
    | .ok cs =>
      match appendAll cs clipped.mesh with
      | .error e => .error e
      | .ok m =>
        match MeshUtil.refineLoop E.norm E.zt minTriangles (minTriangles + 1) m with
        | .error .diverges => .error .diverges
        | .error .ub => .error .ub
        | .error .error => .error .error
        | .ok m => .ok m
  else .ok clipped.mesh

/-- What a trimmed domain keeps: its clipped and its closed mesh, trimmed_domain.h L64. -/
structure Trimmed (K : Type) where
  clipped : Clip.ClippedMesh K
  closed : Mesh K

/-- One attempt of `pGetTrimmedDomain`, brep_operator.cpp L178-186 (`none`: the clipped mesh is empty). -/
def Env.trial (E : Env K) (g : GQ.Query K) (minTriangles : Nat) (lo up : V3 K) (switch : Bool) :
    Except Fault (Option (BRep.Trial K (Trimmed K))) :=
  match BRep.clipTriangleMesh E.zt E.snaptol g lo up with
  | .error e => .error e
  | .ok clipped =>
    if clipped.mesh.triangles.length > 0 then
      match E.build clipped lo up minTriangles switch with
      | .error e => .error e
      | .ok closed =>
        match MeshUtil.meshVolume E.norm closed, MeshUtil.estimateQuality E.norm E.eps closed with
        | some volume, some epsilon => .ok (some ⟨volume, epsilon, ⟨clipped, closed⟩⟩)
        | _, _ => .error .ub
    else .ok none

/-- `pGetTrimmedDomain`, brep_operator.cpp L157-220. -/
def Env.getTrimmedDomain (E : Env K) (g : GQ.Query K) (rl ru : Nat → V3 K) (lo up : V3 K) (minRatio : K) (minTriangles : Nat)
    (neglect : Bool) : Except Fault (Option (Trimmed K)) :=
  BRep.getTrimmedDomain (E.trial g minTriangles) E.snaptol rl ru lo up minRatio neglect

end QuESo.Domain
