import Verif.Model.Mesh
import Verif.Model.Vector
import Verif.Model.BRep

/-!
# Model of the mesh utilities

`queso/utilities/mesh_utilities.cpp` and `queso/utilities/triangle_utilities.hpp` over an exact ordered field `K`.
`norm` is `Math::Norm` (L69-71 of math_utilities.hpp), a parameter because it takes a square root; `zt` is `ZEROTOL` and
`eps` is `EPS4`.
-/
namespace QuESo.MeshUtil
open QuESo.BRep
variable {K : Type} [Field K] [LinearOrder K]

/-- What can go wrong: memory is accessed out of range, an error is thrown or a loop does not end. -/
inductive Fault | ub | error | diverges
  deriving DecidableEq

/-! ## Triangles -/

/-- `TriangleUtilities::Area`, triangle_utilities.hpp L33-39. -/
def area (norm : V3 K → K) (c : V3 (V3 K)) : K := 1 / 2 * norm (V3.cross (c.y - c.x) (c.z - c.x))

/-- `TriangleUtilities::Normal`, triangle_utilities.hpp L46-72. -/
def normal (norm : V3 K → K) (zt : K) (c : V3 (V3 K)) : V3 K :=
  let a := c.y - c.x
  let b := c.z - c.y
  let d := c.x - c.z
  let n :=
    if norm a ≥ norm d - zt ∧ norm b ≥ norm d - zt then V3.cross a b
    else if norm a ≥ norm b - zt ∧ norm d ≥ norm b - zt then V3.cross d a
    else V3.cross b d
  if norm n > zt then V3.scale (1 / norm n) n else ⟨0, 0, 0⟩

/-- `TriangleUtilities::AspectRatio`, triangle_utilities.hpp L79-95; `root3` is the constant for the root of three. -/
def aspectRatio (norm : V3 K → K) (eps root3 : K) (c : V3 (V3 K)) : K :=
  let ar := area norm c
  let a := norm (c.y - c.x)
  let b := norm (c.z - c.y)
  let d := norm (c.x - c.z)
  let longest := max (max a b) d
  if ar > eps then longest * (a + b + d) / (4 * root3 * ar) else 10 ^ 10

/-! ## Refinement -/

/-- The state of one pass of `Refine`, mesh_utilities.cpp L45-74: the new mesh, the cache of midpoints (a `std::map`) and
`did_split`. -/
structure Pass (K : Type) where
  mesh : Mesh K
  cache : List ((Nat × Nat) × Nat)
  split : Bool

/-- The lambda `midpoint_id`, mesh_utilities.cpp L52-66 (`none`: access out of range). -/
def midpointId (old : List (V3 K)) (s : Pass K) (i j : Nat) : Option (Nat × Pass K) :=
  let key := if j < i then (j, i) else (i, j)
  match s.cache.lookup key with
  | some id => some (id, s)
  | none =>
    match old[key.1]?, old[key.2]? with
    | some a, some b =>
      some (s.mesh.vertices.length,
        ⟨s.mesh.addVertex (V3.scale (1 / 2) (a + b)), (key, s.mesh.vertices.length) :: s.cache, s.split⟩)
    | _, _ => none

/-- The four triangles that replace a triangle, mesh_utilities.cpp L75-84. -/
def splitTriangle (old : List (V3 K)) (t : V3 Nat) (n : V3 K) (s : Pass K) : Option (Pass K) :=
  match midpointId old s t.x t.y with
  | none => none
  | some (e1, s1) =>
    match midpointId old s1 t.y t.z with
    | none => none
    | some (e2, s2) =>
      match midpointId old s2 t.z t.x with
      | none => none
      | some (e3, s3) =>
        some ⟨(((s3.mesh.addTriangle ⟨t.x, e1, e3⟩ n).addTriangle ⟨e1, t.y, e2⟩ n).addTriangle ⟨e2, t.z, e3⟩ n).addTriangle
          ⟨e1, e2, e3⟩ n, s3.cache, true⟩

/-- The loop over the triangles, mesh_utilities.cpp L69-88. -/
def passLoop (norm : V3 K → K) (m : Mesh K) (threshold : K) : List Nat → Pass K → Option (Pass K)
  | [], s => some s
  | tid :: rest, s =>
    match m.triangles[tid]?, m.corners tid, m.normals[tid]? with
    | some t, some c, some n =>
      if area norm c > threshold then
        match splitTriangle m.vertices t n s with
        | none => none
        | some s => passLoop norm m threshold rest s
      else passLoop norm m threshold rest { s with mesh := s.mesh.addTriangle t n }
    | _, _, _ => none

/-- `max_area`, mesh_utilities.cpp L31-34. -/
def maxArea (norm : V3 K → K) (cs : List (V3 (V3 K))) : K := cs.foldl (fun a c => max a (area norm c)) 0

/-- The `while` loop of `Refine`, mesh_utilities.cpp L28-96; the first argument bounds the number of passes. -/
def refineLoop (norm : V3 K → K) (zt : K) (n : Nat) : Nat → Mesh K → Except Fault (Mesh K)
  | 0, _ => .error .diverges
  | fuel + 1, m =>
    if m.triangles.length < n then
      match (List.range m.triangles.length).mapM m.corners with
      | none => .error .ub
      | some cs =>
        let a := maxArea norm cs
        if a ≤ zt then .ok m
        else
          match passLoop norm m (9 / 10 * a) (List.range m.triangles.length) ⟨⟨m.vertices, [], []⟩, [], false⟩ with
          | none => .error .ub
          | some s => if s.split then refineLoop norm zt n fuel s.mesh else .ok m
    else .ok m

/-! ## Joining -/

/-- The loop over the triangles of `Append`, mesh_utilities.cpp L110-118. -/
def appendLoop (src : Mesh K) (offset : Nat) : List Nat → Mesh K → Option (Mesh K)
  | [], m => some m
  | tid :: rest, m =>
    match src.triangles[tid]?, src.normals[tid]? with
    | some t, some n => appendLoop src offset rest (m.addTriangle ⟨t.x + offset, t.y + offset, t.z + offset⟩ n)
    | _, _ => none

/-- `Append`, mesh_utilities.cpp L98-119, of another mesh object (`none`: access out of range).  For a mesh that is
appended to itself see `MView.MMesh.appendSelf`. -/
def append (m src : Mesh K) : Option (Mesh K) :=
  appendLoop src m.vertices.length (List.range src.triangles.length) (src.vertices.foldl Mesh.addVertex m)

/-! ## Boxes -/

/-- `MakeMeshBox`, mesh_utilities.cpp L152-184. -/
def makeMeshBox (l u : V3 K) : Mesh K :=
  let m : Mesh K := ((((((((Mesh.empty.addVertex ⟨l.x, l.y, l.z⟩).addVertex ⟨u.x, l.y, l.z⟩).addVertex ⟨l.x, u.y, l.z⟩).addVertex
    ⟨u.x, u.y, l.z⟩).addVertex ⟨l.x, l.y, u.z⟩).addVertex ⟨u.x, l.y, u.z⟩).addVertex ⟨l.x, u.y, u.z⟩).addVertex ⟨u.x, u.y, u.z⟩)
  let m := (m.addTriangle ⟨0, 6, 2⟩ ⟨-1, 0, 0⟩).addTriangle ⟨0, 4, 6⟩ ⟨-1, 0, 0⟩
  let m := (m.addTriangle ⟨1, 7, 5⟩ ⟨1, 0, 0⟩).addTriangle ⟨1, 3, 7⟩ ⟨1, 0, 0⟩
  let m := (m.addTriangle ⟨4, 1, 5⟩ ⟨0, -1, 0⟩).addTriangle ⟨4, 0, 1⟩ ⟨0, -1, 0⟩
  let m := (m.addTriangle ⟨6, 7, 3⟩ ⟨0, 1, 0⟩).addTriangle ⟨6, 3, 2⟩ ⟨0, 1, 0⟩
  let m := (m.addTriangle ⟨1, 0, 3⟩ ⟨0, 0, -1⟩).addTriangle ⟨0, 2, 3⟩ ⟨0, 0, -1⟩
  (m.addTriangle ⟨4, 5, 7⟩ ⟨0, 0, 1⟩).addTriangle ⟨4, 7, 6⟩ ⟨0, 0, 1⟩

/-! ## Measures -/

/-- The corners of a triangle with a normal. -/
def Tri.corners (t : Tri K) : V3 (V3 K) := ⟨t.p1, t.p2, t.p3⟩

/-- `Area` of a mesh, mesh_utilities.cpp L186-193 (`none`: access out of range). -/
def meshArea (norm : V3 K → K) (m : Mesh K) : Option K :=
  match (List.range m.triangles.length).mapM m.corners with
  | none => none
  | some cs => some (cs.foldl (fun a c => a + area norm c) 0)

/-- The term of one triangle in `Volume`, mesh_utilities.cpp L210-211 and L223-224. -/
def volumeTerm (norm : V3 K → K) (t : Tri K) : K := V3.dot t.normal (center (Tri.corners t)) * area norm (Tri.corners t)

/-- `Volume` of a mesh, mesh_utilities.cpp L206-214. -/
def meshVolume (norm : V3 K → K) (m : Mesh K) : Option K :=
  match m.visit with
  | none => none
  | some ts => some |ts.foldl (fun a t => a + volumeTerm norm t) 0 / 3|

/-- Conversion of a number of triangles to `int`, mesh_utilities.cpp L200 and L221 (two's complement, 32 bits). -/
def toInt (n : Nat) : Int := if n % 2 ^ 32 < 2 ^ 31 then (n % 2 ^ 32 : Nat) else (n % 2 ^ 32 : Nat) - 2 ^ 32

/-- A parallel sum: `chunks` are the iterations of the threads, each thread adds up its terms, the sums are added in the order
of the list.  OpenMP does not fix the chunks nor the order. -/
def parallelSum (f : Nat → Option K) (chunks : List (List Nat)) : Option K :=
  (chunks.mapM fun c : List Nat => (c.mapM f).map fun l => l.foldl (· + ·) 0).map fun l => l.foldl (· + ·) 0

/-- The chunks are a schedule of the parallel loop `for (int i = 0; i < static_cast<int>(n); ++i)`: every iteration is in one
chunk, once. -/
def Schedule (n : Nat) (chunks : List (List Nat)) : Prop := chunks.flatten.Perm (List.range (toInt n).toNat)

/-- `AreaOMP`, mesh_utilities.cpp L195-204, for the schedule `chunks`. -/
def meshAreaOMP (norm : V3 K → K) (m : Mesh K) (chunks : List (List Nat)) : Option K :=
  parallelSum (fun i => (m.corners i).map (area norm)) chunks

/-- `VolumeOMP`, mesh_utilities.cpp L216-227, for the schedule `chunks`. -/
def meshVolumeOMP (norm : V3 K → K) (m : Mesh K) (chunks : List (List Nat)) : Option K :=
  (parallelSum (fun i => (m.triangle i).map (volumeTerm norm)) chunks).map fun v => |v / 3|

/-- The component with an index; `center[Dir]` of mesh_utilities.cpp L236. -/
def component (v : V3 K) : Nat → K
  | 0 => v.x
  | 1 => v.y
  | _ => v.z

/-- `Volume` in a direction, mesh_utilities.cpp L229-239. -/
def meshVolumeDir (norm : V3 K → K) (m : Mesh K) (dir : Nat) : Except Fault K :=
  if dir > 2 then .error .error
  else
    match m.visit with
    | none => .error .ub
    | some ts => .ok |ts.foldl (fun a t => a + component t.normal dir * component (center (Tri.corners t)) dir * area norm (Tri.corners t)) 0|

/-- `MaxAspectRatio`, mesh_utilities.cpp L241-248; `mind` is `MIND`. -/
def maxAspectRatio (norm : V3 K → K) (eps root3 mind : K) (m : Mesh K) : Option K :=
  match (List.range m.triangles.length).mapM m.corners with
  | none => none
  | some cs => some (cs.foldl (fun a c => max a (aspectRatio norm eps root3 c)) mind)

/-- `AverageAspectRatio`, mesh_utilities.cpp L250-261. -/
def averageAspectRatio (norm : V3 K → K) (eps root3 : K) (m : Mesh K) : Option K :=
  if m.triangles.length = 0 then some 0
  else
    match (List.range m.triangles.length).mapM m.corners with
    | none => none
    | some cs => some (cs.foldl (fun a c => a + aspectRatio norm eps root3 c) 0 / m.triangles.length)

/-- The sums of `EstimateQuality`, mesh_utilities.cpp L265-269. -/
structure Sums (K : Type) where
  volumes : V3 K
  area : K
  areas : V3 K

/-- One step of the sums, mesh_utilities.cpp L271-283. -/
def sumStep (norm : V3 K → K) (s : Sums K) (t : Tri K) : Sums K :=
  let a := area norm (Tri.corners t)
  let c := center (Tri.corners t)
  ⟨⟨s.volumes.x + t.normal.x * c.x * a, s.volumes.y + t.normal.y * c.y * a, s.volumes.z + t.normal.z * c.z * a⟩,
    s.area + a, ⟨s.areas.x + a * t.normal.x, s.areas.y + a * t.normal.y, s.areas.z + a * t.normal.z⟩⟩

/-- `EstimateQuality`, mesh_utilities.cpp L263-293. -/
def estimateQuality (norm : V3 K → K) (eps : K) (m : Mesh K) : Option K :=
  match m.visit with
  | none => none
  | some ts =>
    let s := ts.foldl (sumStep norm) ⟨⟨0, 0, 0⟩, 0, ⟨0, 0, 0⟩⟩
    let v := |(s.volumes.x + s.volumes.y + s.volumes.z) / 3|
    let denom := max v eps
    let e1 := |s.volumes.x - v| / denom
    let e2 := |s.volumes.y - v| / denom
    let e3 := |s.volumes.z - v| / denom
    let ea := norm s.areas / max |s.area| eps
    some (max (max (max e1 e2) e3) ea)

/-- One step of `BoundingBox`, mesh_utilities.cpp L300-317. -/
def boundStep (b : V3 K × V3 K) (c : V3 (V3 K)) : V3 K × V3 K :=
  (⟨min (min (min c.x.x c.y.x) c.z.x) b.1.x, min (min (min c.x.y c.y.y) c.z.y) b.1.y, min (min (min c.x.z c.y.z) c.z.z) b.1.z⟩,
   ⟨max (max (max c.x.x c.y.x) c.z.x) b.2.x, max (max (max c.x.y c.y.y) c.z.y) b.2.y, max (max (max c.x.z c.y.z) c.z.z) b.2.z⟩)

/-- `BoundingBox`, mesh_utilities.cpp L295-320; `maxd` is `MAXD`, `-maxd` is `LOWESTD`. -/
def boundingBox (maxd : K) (m : Mesh K) : Option (V3 K × V3 K) :=
  match (List.range m.triangles.length).mapM m.corners with
  | none => none
  | some cs => some (cs.foldl boundStep (⟨maxd, maxd, maxd⟩, ⟨-maxd, -maxd, -maxd⟩))

end QuESo.MeshUtil
