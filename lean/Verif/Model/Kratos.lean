import Verif.Model.TriangleRule
import Verif.Model.BSplineVolume

/-!
# The interface to the finite-element program Kratos

Models `kratos_interface/model_part_utilities.py`, `kratos_interface/weak_bcs.py`, `kratos_interface/bounding_box_bcs.py` and
`ModifyInitialGeometry` of `kratos_interface/custom_analysis_stage.py` over an exact ordered field `K`, together with the few functions
of the Kratos model part that these files call.  Kratos is an external library: its functions are modelled after their documentation
(containers are ordered by ids, a second entity with the same id is an error).
-/
namespace QuESo.Kratos
open QuESo.MeshUtil QuESo.TriRule QuESo.BSpline

/-! ## The model part -/

/-- A node: initial coordinates, the fixed directions of the displacement and the nodal variable `POINT_LOAD`, as they are used by
bounding_box_bcs.py L98-105 and L147-157. -/
structure Node (K : Type _) where
  id : Nat
  pos : V3 K
  fixed : V3 Bool
  load : V3 K
  deriving DecidableEq

/-- The geometry of an element or a condition: nodes of the model part (model_part_utilities.py L70, bounding_box_bcs.py L154),
quadrature points of the B-spline volume with weights (model_part_utilities.py L143, weak_bcs.py L243-245;
one geometry holds all points), or a triangle in the parameter
space of the volume (weak_bcs.py L105-111). -/
inductive Geom (K : Type _) where
  | nodes (ids : List Nat)
  | points (ps : List (V3 K × K))
  | surface (corners : V3 (V3 K))
  deriving DecidableEq

/-- An element, model_part_utilities.py L70 and L144-149. -/
structure Element (K : Type _) where
  kind : String
  id : Nat
  geom : Geom K
  deriving DecidableEq

/-- The value of a variable of a condition; `nan` is the value "not a number" of floating-point numbers. -/
inductive Value (α : Type _) where
  | unset
  | nan
  | set (a : α)
  deriving DecidableEq

/-- A condition with its variables `POINT_LOAD` (weak_bcs.py L258-260) and `DISPLACEMENT` (weak_bcs.py L121).  All conditions share the
properties with the number 1 of the model part (weak_bcs.py L87), so the condition itself does not hold the penalty factor. -/
structure Cond (K : Type _) where
  kind : String
  id : Nat
  geom : Geom K
  load : Value (V3 K)
  displacement : Option (V3 K)
  deriving DecidableEq

/-- A model part: nodes, elements and conditions, ordered by ids, and the value `PENALTY_FACTOR` of the properties with number 1. -/
structure ModelPart (K : Type _) where
  nodes : List (Node K)
  elements : List (Element K)
  conditions : List (Cond K)
  penalty : Option K
  deriving DecidableEq

/-- Insertion into a container that is ordered by ids (external: `PointerVectorSet` of Kratos), as used by `CreateNewNode`,
`CreateNewElement` and `CreateNewCondition`, model_part_utilities.py L62, L70 and L144. -/
def insertById {α : Type _} (key : α → Nat) (a : α) (l : List α) : List α :=
  l.takeWhile (fun b => decide (key b < key a)) ++ a :: l.dropWhile (fun b => decide (key b < key a))

section
variable {K : Type} [Field K] [LinearOrder K]

/-- `CreateNewNode` (external), model_part_utilities.py L62: a node that exists already with the same coordinates is used again, other
coordinates are an error. -/
def createNode (id : Nat) (v : V3 K) (mp : ModelPart K) : Option (ModelPart K) :=
  match mp.nodes.find? (fun n => decide (n.id = id)) with
  | some n => if n.pos = v then some mp else none
  | none => some { mp with nodes := insertById Node.id ⟨id, v, ⟨false, false, false⟩, ⟨0, 0, 0⟩⟩ mp.nodes }

/-- `CreateNewElement` (external), model_part_utilities.py L70 and L144-149: an id that exists already and unknown nodes are errors. -/
def createElement (e : Element K) (mp : ModelPart K) : Option (ModelPart K) :=
  if mp.elements.any (fun f => decide (f.id = e.id)) then none
  else
    match e.geom with
    | .nodes ids =>
      if ids.all (fun i => mp.nodes.any fun n => decide (n.id = i)) then
        some { mp with elements := insertById Element.id e mp.elements } else none
    | _ => some { mp with elements := insertById Element.id e mp.elements }

/-- `CreateNewCondition` (external), weak_bcs.py L115-120 and bounding_box_bcs.py L154: an id that exists already and unknown nodes are
errors. -/
def createCondition (c : Cond K) (mp : ModelPart K) : Option (ModelPart K) :=
  if mp.conditions.any (fun f => decide (f.id = c.id)) then none
  else
    match c.geom with
    | .nodes ids =>
      if ids.all (fun i => mp.nodes.any fun n => decide (n.id = i)) then
        some { mp with conditions := insertById Cond.id c mp.conditions } else none
    | _ => some { mp with conditions := insertById Cond.id c mp.conditions }

/-- `remove_all_elements`, model_part_utilities.py L223-233. -/
def removeElements (mp : ModelPart K) : ModelPart K := { mp with elements := [] }

/-- `remove_all_conditions`, model_part_utilities.py L235-245. -/
def removeConditions (mp : ModelPart K) : ModelPart K := { mp with conditions := [] }

/-! ## Triangle meshes -/

/-- The value of the dictionary `id_map` of model_part_utilities.py L60 for a vertex: later vertices with the same coordinates
overwrite earlier ones (`none`: `KeyError`). -/
def idOfVertex (vs : List (V3 K)) (v : V3 K) : Option Nat :=
  vs.zipIdx.foldl (fun r q => if q.1 = v then some q.2 else r) none

/-- `read_model_part_from_triangle_mesh`, model_part_utilities.py L47-70 (`none`: an exception or an access out of range). -/
def readModelPart (mp : ModelPart K) (m : Mesh K) : Option (ModelPart K) :=
  (m.vertices.zipIdx.foldlM (fun mp q => createNode (q.2 + 1) q.1 mp) mp).bind fun mp =>
    m.visit.bind fun ts =>
      ts.zipIdx.foldlM (fun mp q =>
        (idOfVertex m.vertices q.1.p1).bind fun a =>
          (idOfVertex m.vertices q.1.p2).bind fun b =>
            (idOfVertex m.vertices q.1.p3).bind fun c =>
              createElement ⟨"ShellThinElement3D3N", q.2 + 1, .nodes [a + 1, b + 1, c + 1]⟩ mp) mp

/-- `AddTriangle` of the python class, add_containers_to_python.cpp L198-207: the normal is computed from the vertices (`none`: the
vertices are accessed out of range). -/
def pyAddTriangle (norm : V3 K → K) (zt : K) (t : V3 Nat) (m : Mesh K) : Option (Mesh K) :=
  match m.vertices[t.x]?, m.vertices[t.y]?, m.vertices[t.z]? with
  | some a, some b, some c => some (m.addTriangle t (normal norm zt ⟨a, b, c⟩))
  | _, _, _ => none

/-- The value of the dictionary `id_map` of model_part_utilities.py L89 (`none`: `KeyError`). -/
def idOfNode (ns : List (Node K)) (id : Nat) : Option Nat :=
  ns.zipIdx.foldl (fun r q => if q.1.id = id then some q.2 else r) none

/-- The nodes of a geometry, model_part_utilities.py L104-111.  Geometries with quadrature points have at least eight nodes and surfaces
in a volume are not conditions with nodes of the model part; both are not triangles. -/
def Geom.nodeIds : Geom K → Option (V3 Nat)
  | .nodes [a, b, c] => some ⟨a, b, c⟩
  | _ => none

/-- `read_triangle_mesh_grom_model_part`, model_part_utilities.py L72-112 (`none`: an exception or an access out of range).
Simplification: nodes have not moved, so that `node.X` is the initial coordinate. -/
def readTriangleMesh (norm : V3 K → K) (zt : K) (m : Mesh K) (mp : ModelPart K) (type : String) : Option (Mesh K) :=
  let m := mp.nodes.foldl (fun m n => m.addVertex n.pos) m
  (if type = "Elements" then some (mp.elements.map Element.geom)
    else if type = "Conditions" then some (mp.conditions.map Cond.geom) else none).bind fun gs =>
    gs.foldlM (fun m g =>
      g.nodeIds.bind fun ids =>
        (idOfNode mp.nodes ids.x).bind fun a =>
          (idOfNode mp.nodes ids.y).bind fun b =>
            (idOfNode mp.nodes ids.z).bind fun c => pyAddTriangle norm zt ⟨a, b, c⟩ m) m

/-! ## Elements -/

/-- `add_elements_to_model_part`, model_part_utilities.py L114-149: the elements with their integration points (`none`: an
exception). -/
def addElements (es : List (List (Mapping.VolPoint K))) (mp : ModelPart K) : Option (ModelPart K) :=
  (es.foldlM (fun (s : ModelPart K × Nat) ps =>
    let pts := (ps.filter fun q => decide (q.weight > 0)).map fun q => (q.pos, q.weight)
    if pts = [] then some s
    else (createElement ⟨"SmallDisplacementElement3D8N", s.2 + 1, .points pts⟩ s.1).map fun mp => (mp, s.2 + 1)) (mp, 0)).map Prod.fst

/-! ## Weak boundary conditions -/

/-- Numbers and functions that the weak conditions use: norm and tolerances of the triangles (triangle_utilities.hpp L79-95), the bounds
of the grid and the function `Area` of a surface in the volume (external). -/
structure Setup (K : Type _) where
  norm : V3 K → K
  zt : K
  eps : K
  root3 : K
  xyz : Box K
  uvw : Box K
  surfaceArea : V3 (V3 K) → K

/-- The loop over the triangles in `apply` of the supports, weak_bcs.py L92-122 and L158-190 (`none`: an exception). -/
def supportLoop (S : Setup K) (kind : String) (prescribed : V3 K) (ts : List (Tri K)) (s : ModelPart K × Nat) :
    Option (ModelPart K × Nat) :=
  ts.foldlM (fun (s : ModelPart K × Nat) t =>
    (globalToParam t.p1 S.xyz S.uvw).bind fun a =>
      (globalToParam t.p2 S.xyz S.uvw).bind fun b =>
        (globalToParam t.p3 S.xyz S.uvw).bind fun c =>
          if aspectRatio S.norm S.eps S.root3 (Tri.corners t) ≥ 10 ^ 8 then some s
          else if S.surfaceArea ⟨a, b, c⟩ ≤ 1 / 10 ^ 14 then some s
          else (createCondition ⟨kind, s.2, .surface ⟨a, b, c⟩, .unset, some prescribed⟩ s.1).map fun mp => (mp, s.2 + 1)) s

/-- `PenaltySupport.apply`, weak_bcs.py L80-122 (`none`: an exception or an access out of range). -/
def penaltySupport (S : Setup K) (m : Mesh K) (prescribed : V3 K) (penalty : K) (mp : ModelPart K) : Option (ModelPart K) :=
  let mp := { mp with penalty := some penalty }
  m.visit.bind fun ts => (supportLoop S "SupportPenaltyCondition" prescribed ts (mp, mp.conditions.length + 1)).map Prod.fst

/-- `LagrangeSupport.apply`, weak_bcs.py L146-190. -/
def lagrangeSupport (S : Setup K) (m : Mesh K) (prescribed : V3 K) (mp : ModelPart K) : Option (ModelPart K) :=
  m.visit.bind fun ts => (supportLoop S "SupportLagrangeCondition" prescribed ts (mp, mp.conditions.length + 1)).map Prod.fst

/-- The loops over triangles and points in `apply` of the loads, weak_bcs.py L232-261 and L295-328; `force` gives the force of a point
(`none`: an exception). -/
def loadLoop (S : Setup K) (force : Mapping.BndPoint K → Value (V3 K)) (ts : List (Tri K)) (s : ModelPart K × Nat) :
    Option (ModelPart K × Nat) :=
  ts.foldlM (fun (s : ModelPart K × Nat) t =>
    (ipsGlobal S.norm S.zt (Tri.corners t) 1).bind fun ps =>
      ps.foldlM (fun (s : ModelPart K × Nat) q =>
        (globalToParam q.pos S.xyz S.uvw).bind fun v =>
          if q.weight < 1 / 10 ^ 14 then some s
          else (createCondition ⟨"LoadCondition", s.2, .points [(v, q.weight)], force q, none⟩ s.1).map fun mp => (mp, s.2 + 1)) s) s

/-- `SurfaceLoad.__init__`, weak_bcs.py L197-220: the force per area.  The exception for a direction of length zero is constructed but not
raised (L217-218), and the division by zero gives numbers that are "not a number". -/
def surfaceForce (norm : V3 K → K) (modulus : K) (direction : V3 K) : Value (V3 K) :=
  if norm direction = 0 then .nan else .set (V3.scale modulus (V3.scale (1 / norm direction) direction))

/-- `SurfaceLoad.apply`, weak_bcs.py L222-261. -/
def surfaceLoad (S : Setup K) (m : Mesh K) (force : Value (V3 K)) (mp : ModelPart K) : Option (ModelPart K) :=
  m.visit.bind fun ts => (loadLoop S (fun q => match force with
    | .set f => .set (V3.scale q.weight f)
    | f => f) ts (mp, mp.conditions.length + 1)).map Prod.fst

/-- `PressureLoad.apply`, weak_bcs.py L285-328. -/
def pressureLoad (S : Setup K) (m : Mesh K) (modulus : K) (mp : ModelPart K) : Option (ModelPart K) :=
  m.visit.bind fun ts => (loadLoop S (fun q => .set (V3.scale (-1 * q.weight * modulus) q.normal)) ts
    (mp, mp.conditions.length + 1)).map Prod.fst

/-! ## Conditions by bounding boxes -/

/-- `_is_inside`, bounding_box_bcs.py L43-53. -/
def isInside (b : Box K) (p : V3 K) : Bool :=
  decide (b.lower.x < p.x ∧ p.x < b.upper.x) && decide (b.lower.y < p.y ∧ p.y < b.upper.y) && decide (b.lower.z < p.z ∧ p.z < b.upper.z)

/-- `DirichletCondition.apply`, bounding_box_bcs.py L90-105. -/
def dirichlet (b : Box K) (disp : V3 Bool) (mp : ModelPart K) : ModelPart K :=
  { mp with nodes := mp.nodes.map fun n =>
      if isInside b n.pos then
        { n with fixed := ⟨if disp.x then true else n.fixed.x, if disp.y then true else n.fixed.y, if disp.z then true else n.fixed.z⟩ }
      else n }

/-- One step of the loop of `NeumannCondition.apply`, bounding_box_bcs.py L153-157. -/
def pointLoad (f : V3 K) (id node : Nat) (mp : ModelPart K) : Option (ModelPart K) :=
  (createCondition ⟨"PointLoadCondition3D1N", id, .nodes [node], .unset, none⟩ mp).map fun mp =>
    { mp with nodes := mp.nodes.map fun n => if n.id = node then { n with load := f } else n }

/-- `NeumannCondition.apply`, bounding_box_bcs.py L132-159 (`none`: an exception). -/
def neumann (b : Box K) (force : V3 K) (mp : ModelPart K) : Option (ModelPart K) :=
  let ids := (mp.nodes.filter fun n => isInside b n.pos).map Node.id
  if ids = [] then some mp
  else
    let num : K := (ids.length : K)
    let f : V3 K := ⟨force.x / num, force.y / num, force.z / num⟩
    let first := mp.conditions.length + 1
    ids.zipIdx.foldlM (fun mp q => pointLoad f (first + q.2) q.1 mp) mp

/-! ## All conditions -/

/-- The settings of a condition that are read (model_part_utilities.py L168-196); `none` stands for a value that is not set, which is an
error when it is read. -/
structure CondSettings (K : Type _) where
  type : String
  value : Option (V3 K)
  penalty : Option K
  modulus : Option K
  direction : Option (V3 K)

/-- An entry of the argument `Conditions`: a condition of QuESo with the meshes of its segments (model_part_utilities.py L200-216), or a
condition with a bounding box (L217-218). -/
inductive BC (K : Type _) where
  | weak (s : CondSettings K) (segments : List (Mesh K))
  | dirichlet (b : Box K) (disp : V3 Bool)
  | neumann (b : Box K) (force : V3 K)

/-- An entry of the list `boundary_conditions`, model_part_utilities.py L198-218. -/
inductive Ready (K : Type _) where
  | penalty (m : Mesh K) (prescribed : V3 K) (factor : K)
  | lagrange (m : Mesh K) (prescribed : V3 K)
  | surface (m : Mesh K) (force : Value (V3 K))
  | pressure (m : Mesh K) (modulus : K)
  | dirichlet (b : Box K) (disp : V3 Bool)
  | neumann (b : Box K) (force : V3 K)

/-- The handlers, model_part_utilities.py L168-196 (`none`: an exception). -/
def handler (norm : V3 K → K) (s : CondSettings K) (m : Mesh K) : Option (Ready K) :=
  if s.type = "PenaltySupportCondition" then s.value.bind fun v => s.penalty.map fun p => .penalty m v p
  else if s.type = "LagrangeSupportCondition" then s.value.map fun v => .lagrange m v
  else if s.type = "SurfaceLoadCondition" then
    s.modulus.bind fun a => s.direction.map fun d => .surface m (surfaceForce norm a d)
  else if s.type = "PressureLoadCondition" then s.modulus.map fun a => .pressure m a
  else none

/-- The first loop of `add_conditions_to_model_part`, model_part_utilities.py L198-218 (`none`: an exception). -/
def prepare (norm : V3 K → K) (bcs : List (BC K)) : Option (List (Ready K)) :=
  bcs.foldlM (fun acc bc =>
    match bc with
    | .weak s segments =>
      if s.type ∈ ["PenaltySupportCondition", "LagrangeSupportCondition", "SurfaceLoadCondition", "PressureLoadCondition"] then
        segments.foldlM (fun acc m => (handler norm s m).map fun r => acc ++ [r]) acc
      else none
    | .dirichlet b d => some (acc ++ [.dirichlet b d])
    | .neumann b f => some (acc ++ [.neumann b f])) []

/-- `apply` of an entry, model_part_utilities.py L220-221. -/
def Ready.apply (S : Setup K) : Ready K → ModelPart K → Option (ModelPart K)
  | .penalty m v p, mp => penaltySupport S m v p mp
  | .lagrange m v, mp => lagrangeSupport S m v mp
  | .surface m f, mp => surfaceLoad S m f mp
  | .pressure m a, mp => pressureLoad S m a mp
  | .dirichlet b d, mp => some (Kratos.dirichlet b d mp)
  | .neumann b f, mp => Kratos.neumann b f mp

/-- `add_conditions_to_model_part`, model_part_utilities.py L151-221 (`none`: an exception). -/
def addConditions (S : Setup K) (bcs : List (BC K)) (mp : ModelPart K) : Option (ModelPart K) :=
  (prepare S.norm bcs).bind fun rs => rs.foldlM (fun mp r => r.apply S mp) mp

/-- The types of degrees of freedom of the nodes, custom_analysis_stage.py L130-138; `lagrange` is `lagrange_dofs_required`. -/
def dofs (lagrange : Bool) : List String :=
  ["DISPLACEMENT_X", "DISPLACEMENT_Y", "DISPLACEMENT_Z"] ++
    if lagrange then ["VECTOR_LAGRANGE_MULTIPLIER_X", "VECTOR_LAGRANGE_MULTIPLIER_Y", "VECTOR_LAGRANGE_MULTIPLIER_Z"] else []

/-- `lagrange_dofs_required`, custom_analysis_stage.py L49-54: the types of the conditions in the settings. -/
def lagrangeRequired (types : List String) : Bool := types.foldl (fun r t => if t = "LagrangeSupportCondition" then true else r) false

/-- `ModifyInitialGeometry`, custom_analysis_stage.py L111-138 (`none`: an exception): the model part and the degrees of freedom. -/
def modifyGeometry (S : Setup K) (types : List String) (es : List (List (Mapping.VolPoint K))) (bcs : List (BC K)) (mp : ModelPart K) :
    Option (ModelPart K × List String) :=
  (addElements es (removeConditions (removeElements mp))).bind fun mp =>
    (addConditions S bcs mp).map fun mp => (mp, dofs (lagrangeRequired types))

end
end QuESo.Kratos
