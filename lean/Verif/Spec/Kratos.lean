import Verif.Model.Kratos
import Verif.Spec.Surface
import Verif.Spec.Box

/-!
# Specification vocabulary for the interface to Kratos
-/
namespace QuESo.KratosSpec
open QuESo.Kratos QuESo.Spec
variable {K : Type} [Field K] [LinearOrder K]

/-- The conditions have the ids 1, 2, ..., as many as there are conditions. -/
def Numbered (cs : List (Cond K)) : Prop := cs.map Cond.id = List.range' 1 cs.length

/-- The nodes of a model part are ordered by ids and no two nodes have the same id. -/
def OrderedNodes (mp : ModelPart K) : Prop := (mp.nodes.map Node.id).Pairwise (· < ·)

/-- The two points have the same position relative to the two boxes. -/
def SamePlace (xyz uvw : Box K) (p q : V3 K) : Prop :=
  (q.x - uvw.lower.x) * (xyz.upper.x - xyz.lower.x) = (p.x - xyz.lower.x) * (uvw.upper.x - uvw.lower.x) ∧
  (q.y - uvw.lower.y) * (xyz.upper.y - xyz.lower.y) = (p.y - xyz.lower.y) * (uvw.upper.y - uvw.lower.y) ∧
  (q.z - uvw.lower.z) * (xyz.upper.z - xyz.lower.z) = (p.z - xyz.lower.z) * (uvw.upper.z - uvw.lower.z)

/-- The area of a triangle. -/
def triangleArea (norm : V3 K → K) (t : Tri K) : K := norm (triangleArea2 t.p1 t.p2 t.p3) / 2

/-- The three points of a triangle that lie halfway between the centroid and the corners. -/
def loadPoints (t : Tri K) : List (V3 K) :=
  let at' : V3 K → V3 K → V3 K → V3 K := fun a b c => ⟨(4 * a.x + b.x + c.x) / 6, (4 * a.y + b.y + c.y) / 6, (4 * a.z + b.z + c.z) / 6⟩
  [at' t.p1 t.p2 t.p3, at' t.p2 t.p3 t.p1, at' t.p3 t.p1 t.p2]

/-- The condition is a load at a point: `p` is the point, `w` the weight and `f` the force. -/
def LoadAt (xyz uvw : Box K) (c : Cond K) (p : V3 K) (w : K) (f : V3 K) : Prop :=
  c.kind = "LoadCondition" ∧ c.load = .set f ∧ c.displacement = none ∧ ∃ q, SamePlace xyz uvw p q ∧ c.geom = .points [(q, w)]

/-- The force that a condition applies to the model (`none`: not a number).  A point load on a node applies the nodal variable of that node,
a load in the volume its own variable; all other conditions apply no force. -/
def forceOf (mp : ModelPart K) (c : Cond K) : Option (V3 K) :=
  if c.kind = "LoadCondition" then
    match c.load with
    | .set f => some f
    | .unset => some ⟨0, 0, 0⟩
    | .nan => none
  else if c.kind = "PointLoadCondition3D1N" then
    match c.geom with
    | .nodes [i] => (mp.nodes.find? fun n => decide (n.id = i)).map Node.load
    | _ => none
  else some ⟨0, 0, 0⟩

/-- The sum of the forces of some conditions. -/
def totalForce (mp : ModelPart K) (cs : List (Cond K)) : Option (V3 K) := (cs.mapM (forceOf mp)).map sumV

/-- The condition is a support on a triangle: the corners of its geometry are at the places of the corners of the triangle. -/
def SupportOn (xyz uvw : Box K) (kind : String) (u : V3 K) (c : Cond K) (t : Tri K) : Prop :=
  c.kind = kind ∧ c.displacement = some u ∧ c.load = .unset ∧ ∃ q1 q2 q3, SamePlace xyz uvw t.p1 q1 ∧ SamePlace xyz uvw t.p2 q2 ∧
    SamePlace xyz uvw t.p3 q3 ∧ c.geom = .surface ⟨q1, q2, q3⟩

/-- The longest edge of a triangle. -/
def longestEdge (norm : V3 K → K) (t : Tri K) : K :=
  max (max (norm (t.p2 - t.p1)) (norm (t.p3 - t.p2))) (norm (t.p1 - t.p3))

/-- The perimeter of a triangle. -/
def perimeter (norm : V3 K → K) (t : Tri K) : K := norm (t.p2 - t.p1) + norm (t.p3 - t.p2) + norm (t.p1 - t.p3)

/-- The point lies strictly in the box. -/
def StrictlyIn (b : Box K) (p : V3 K) : Prop :=
  (b.lower.x < p.x ∧ p.x < b.upper.x) ∧ (b.lower.y < p.y ∧ p.y < b.upper.y) ∧ (b.lower.z < p.z ∧ p.z < b.upper.z)

/-- The model part has a node with the id at the position. -/
def NodeAt (mp : ModelPart K) (id : Nat) (p : V3 K) : Prop := ∃ n ∈ mp.nodes, n.id = id ∧ n.pos = p

/-- The geometry is a triangle with nodes at the corners. -/
def TriangleOn (mp : ModelPart K) (g : Geom K) (c : V3 (V3 K)) : Prop :=
  ∃ i j k, g = .nodes [i, j, k] ∧ NodeAt mp i c.x ∧ NodeAt mp j c.y ∧ NodeAt mp k c.z

/-- The type of the condition is known and the values that belong to it are set. -/
def CompleteSettings (s : CondSettings K) : Prop :=
  (s.type = "PenaltySupportCondition" ∧ s.value.isSome ∧ s.penalty.isSome) ∨
  (s.type = "LagrangeSupportCondition" ∧ s.value.isSome) ∨
  (s.type = "SurfaceLoadCondition" ∧ s.modulus.isSome ∧ s.direction.isSome) ∨
  (s.type = "PressureLoadCondition" ∧ s.modulus.isSome)

/-- The settings of the condition are complete and the triangles of its meshes can be read. -/
def Complete : BC K → Prop
  | .weak s segments => CompleteSettings s ∧ ∀ m ∈ segments, ∃ ts, m.visit = some ts
  | _ => True

end QuESo.KratosSpec
