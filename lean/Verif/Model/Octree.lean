import Verif.Model.SingleElement

/-!
# The octree of a trimmed element

Models `queso/embedding/octree.h` and `queso/embedding/octree.cpp`.  The geometry enters through the two
member functions that the octree calls on its operator: `GetIntersectionState` of a box (`state`) and
`IsInsideActiveDomain` of a point (`inside`); both are arbitrary functions here.
-/
namespace QuESo.Octree
open Mapping
variable {K : Type _} [Field K] [LinearOrder K]

/-- `Octree::Node`, octree.h L48-146, or a null pointer (`null`, an entry of `mChildren` that was not
created).  `num` is `mNumChildren`. -/
inductive Node (K : Type _) where
  | null
  | node (xyz uvw : Box K) (status : IState) (level num : Nat) (c0 c1 c2 c3 c4 c5 c6 c7 : Node K)

/-- The eight boxes of `Node::Refine`, octree.cpp L32-79, corner a to corner h (index 0 to 7). -/
def childBox (b : Box K) (k : Nat) : Box K :=
  let lo := b.lower
  let up := b.upper
  let d := V3.scale (1 / 2) (up - lo)
  let dx : V3 K := ⟨d.x, 0, 0⟩
  let dy : V3 K := ⟨0, d.y, 0⟩
  let dz : V3 K := ⟨0, 0, d.z⟩
  match k with
  | 0 => ⟨lo, lo + d⟩
  | 1 => ⟨lo + dx, (lo + dx) + d⟩
  | 2 => ⟨(up - dz) - d, up - dz⟩
  | 3 => ⟨lo + dy, (lo + dy) + d⟩
  | 4 => ⟨lo + dz, (lo + dz) + d⟩
  | 5 => ⟨(up - dy) - d, up - dy⟩
  | 6 => ⟨up - d, up⟩
  | _ => ⟨(up - dx) - d, up - dx⟩

/-- A new node without children, octree.h L60-65. -/
def leaf (xyz uvw : Box K) (st : IState) (level : Nat) : Node K :=
  .node xyz uvw st level 0 .null .null .null .null .null .null .null .null

/-- One for a created child, zero for a null pointer (the increments of `mNumChildren`,
octree.cpp L120). -/
def Node.count : Node K → Nat
  | .null => 0
  | .node .. => 1

/-- `Node::Refine` on a node without children together with `Node::CreateNewNode`, octree.cpp L28-79 and
L116-123.  Simplification: since all entries of `mChildren` are null in a node without children, they
are not passed in. -/
def refineLeaf (state : Box K → IState) (minL maxL : Nat) (xyz uvw : Box K) (st : IState) (level : Nat) :
    Node K :=
  if _h : level < minL ∨ (level < maxL ∧ st = .trimmed) then
    let create := fun k : Nat =>
      let s := state (childBox xyz k)
      if s ≠ .outside then
        refineLeaf state minL maxL (childBox xyz k) (childBox uvw k) s (level + 1)
      else .null
    let c0 := create 0
    let c1 := create 1
    let c2 := create 2
    let c3 := create 3
    let c4 := create 4
    let c5 := create 5
    let c6 := create 6
    let c7 := create 7
    .node xyz uvw st level
      (c0.count + c1.count + c2.count + c3.count + c4.count + c5.count + c6.count + c7.count)
      c0 c1 c2 c3 c4 c5 c6 c7
  else leaf xyz uvw st level
termination_by max minL maxL - level

/-- `Node::Refine`, octree.cpp L28-88. -/
def refineNode (state : Box K → IState) (minL maxL : Nat) : Node K → Node K
  | .null => .null
  | .node xyz uvw st level num c0 c1 c2 c3 c4 c5 c6 c7 =>
    if num = 0 then refineLeaf state minL maxL xyz uvw st level
    else
      .node xyz uvw st level num
        (refineNode state minL maxL c0) (refineNode state minL maxL c1)
        (refineNode state minL maxL c2) (refineNode state minL maxL c3)
        (refineNode state minL maxL c4) (refineNode state minL maxL c5)
        (refineNode state minL maxL c6) (refineNode state minL maxL c7)

/-- `Octree`: root node and the two stored levels, octree.h L224-227. -/
structure Tree (K : Type _) where
  root : Node K
  minLevel : Nat
  maxLevel : Nat

/-- The constructor, octree.h L156-161 and L226-227. -/
def new (xyz uvw : Box K) : Tree K := ⟨leaf xyz uvw .trimmed 0, 0, 0⟩

/-- `Octree::Refine`, octree.cpp L135-141; `none` is the thrown error. -/
def refine (state : Box K → IState) (t : Tree K) (minL maxL : Nat) : Option (Tree K) :=
  if minL > maxL then none else some ⟨refineNode state minL maxL t.root, minL, maxL⟩

/-- A sequence of calls of `Refine`. -/
def refines (state : Box K → IState) (t : Tree K) (calls : List (Nat × Nat)) : Option (Tree K) :=
  calls.foldlM (fun t c => refine state t c.1 c.2) t

/-- `Node::NumberOfLeafs`, octree.cpp L91-101. -/
def Node.numberOfLeafs : Node K → Nat
  | .null => 0
  | .node _ _ _ _ num c0 c1 c2 c3 c4 c5 c6 c7 =>
    if num = 0 then 1
    else c0.numberOfLeafs + c1.numberOfLeafs + c2.numberOfLeafs + c3.numberOfLeafs +
      c4.numberOfLeafs + c5.numberOfLeafs + c6.numberOfLeafs + c7.numberOfLeafs

/-- `Node::NumberOfNodes`, octree.cpp L103-113. -/
def Node.numberOfNodes : Node K → Nat
  | .null => 0
  | .node _ _ _ _ num c0 c1 c2 c3 c4 c5 c6 c7 =>
    if num = 0 then 1
    else 1 + c0.numberOfNodes + c1.numberOfNodes + c2.numberOfNodes + c3.numberOfNodes +
      c4.numberOfNodes + c5.numberOfNodes + c6.numberOfNodes + c7.numberOfNodes

/-- A leaf as seen by the user: its two boxes, its status and its level. -/
structure Leaf (K : Type _) where
  xyz : Box K
  uvw : Box K
  status : IState
  level : Nat

/-- The leaves in the order in which `GetIntegrationPoints` visits them, octree.h L83-106. -/
def Node.leaves : Node K → List (Leaf K)
  | .null => []
  | .node xyz uvw st level num c0 c1 c2 c3 c4 c5 c6 c7 =>
    if num = 0 then [⟨xyz, uvw, st, level⟩]
    else c0.leaves ++ c1.leaves ++ c2.leaves ++ c3.leaves ++ c4.leaves ++ c5.leaves ++ c6.leaves ++
      c7.leaves

/-- The points of one leaf, octree.h L84-98.  `rule` is the triple of one-dimensional Gauss rules. -/
def leafPoints (inside : V3 K → Bool) (rule : V3 (List (K × K))) (xyz uvw : Box K) (st : IState) :
    List (VolPoint K) :=
  let tmp := Quad.assembleIPs rule.x rule.y rule.z uvw
  if st = .inside then tmp
  else tmp.filter (fun q => inside (toGlobal q.pos ⟨xyz, uvw⟩))

/-- `Node::GetIntegrationPoints`, octree.h L83-106: the points that are appended. -/
def Node.points (inside : V3 K → Bool) (rule : V3 (List (K × K))) : Node K → List (VolPoint K)
  | .null => []
  | .node xyz uvw st _ num c0 c1 c2 c3 c4 c5 c6 c7 =>
    if num = 0 then leafPoints inside rule xyz uvw st
    else c0.points inside rule ++ c1.points inside rule ++ c2.points inside rule ++
      c3.points inside rule ++ c4.points inside rule ++ c5.points inside rule ++
      c6.points inside rule ++ c7.points inside rule

end QuESo.Octree
