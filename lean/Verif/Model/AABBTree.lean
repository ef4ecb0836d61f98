import Verif.Model.AABB

/-!
# The bounding-box tree

Models the class `Tree_base` of `external_libraries/aabb_tree/AABB_base.cc` (the part that QuESo uses: construction
and insertion) and `queso/embedding/aabb_tree.h/.cpp`.  The tree is modelled as it is stored: a growing array of
nodes that refer to each other by index, with a free list.  Indices are 32-bit unsigned integers.
-/
namespace QuESo.AABBTree
open QuESo.AABB
variable {K : Type _} [Field K] [LinearOrder K]

/-- `NULL_NODE`, AABB_base.h L47. -/
def nullNode : Nat := 4294967295

/-- `Node`, AABB_base.h L155-186. -/
structure Node (K : Type _) where
  box : Box K
  parent : Nat
  next : Nat
  left : Nat
  right : Nat
  height : Int
  particle : Nat

/-- `Node::isLeaf`, AABB_base.cc L190-193. -/
def Node.isLeaf (n : Node K) : Bool := n.left == nullNode

/-- The members of `Tree_base` that are used, AABB_base.h L330-380.  `particleMap` is the list of its entries. -/
structure Tree (K : Type _) where
  nodes : List (Node K)
  root : Nat
  freeList : Nat
  nodeCount : Nat
  nodeCapacity : Nat
  particleMap : List (Nat × Nat)

/-- What can go wrong: access outside the array, a thrown error, a loop that does not end. -/
inductive Fault | ub | error | diverges
  deriving DecidableEq

/-- `nodes[i]`. -/
def Tree.get (t : Tree K) (i : Nat) : Except Fault (Node K) :=
  match t.nodes[i]? with
  | some n => .ok n
  | none => .error .ub

/-- `nodes[i].field = value`: the node is read, changed and stored. -/
def Tree.upd (t : Tree K) (i : Nat) (f : Node K → Node K) : Except Fault (Tree K) :=
  match t.nodes[i]? with
  | some n => .ok { t with nodes := t.nodes.set i (f n) }
  | none => .error .ub

/-- Chaining of the free nodes from index `first`, AABB_base.cc L219-225 and L307-313, in an array of `cap`
nodes.  `nodes` are the nodes of the array after the resize. -/
def chain (first cap : Nat) (nodes : List (Node K)) : List (Node K) :=
  nodes.mapIdx fun i n =>
    if first ≤ i ∧ i + 1 < cap then { n with next := i + 1, height := -1 }
    else if i + 1 = cap then { n with next := nullNode, height := -1 } else n

/-- Constructor `Tree_base(3, 0.0, 16, false)`, AABB_base.cc L195-229 and aabb_tree.h L52; `junk` is a node whose
members have not been set. -/
def Tree.new (junk : Node K) : Tree K :=
  { nodes := chain 0 16 (List.replicate 16 junk), root := nullNode, freeList := 0, nodeCount := 0, nodeCapacity := 16,
    particleMap := [] }

/-- `allocateNode`, AABB_base.cc L295-330.  The doubling of the capacity is 32-bit arithmetic. -/
def Tree.allocate (junk : Node K) (t : Tree K) : Except Fault (Tree K × Nat) :=
  let t1 : Tree K :=
    if t.freeList = nullNode then
      let cap := (t.nodeCapacity * 2) % 4294967296
      { t with nodeCapacity := cap,
               nodes := chain t.nodeCount cap ((t.nodes ++ List.replicate (cap - t.nodes.length) junk).take cap),
               freeList := t.nodeCount }
    else t
  let node := t1.freeList
  match t1.get node with
  | .error e => .error e
  | .ok n =>
    match t1.upd node (fun n => { n with parent := nullNode, left := nullNode, right := nullNode, height := 0 }) with
    | .error e => .error e
    | .ok t2 => .ok ({ t2 with freeList := n.next, nodeCount := t2.nodeCount + 1 }, node)

/-- The costs of the descent, AABB_base.cc L710-754: of a new parent here, and of descending to a child. -/
def cost (node leaf : Box K) : K := 2 * surfaceArea (merge node leaf)

def costChild (node leaf child : Box K) (childIsLeaf : Bool) : K :=
  let inheritance := 2 * (surfaceArea (merge node leaf) - surfaceArea node)
  if childIsLeaf then surfaceArea (merge leaf child) + inheritance
  else (surfaceArea (merge leaf child) - surfaceArea child) + inheritance

/-- The loop that looks for the best sibling, AABB_base.cc L704-764.  `fuel` bounds the number of steps. -/
def Tree.findSibling (t : Tree K) (leaf : Box K) : Nat → Nat → Except Fault Nat
  | 0, _ => .error .diverges
  | fuel + 1, index =>
    match t.get index with
    | .error e => .error e
    | .ok n =>
      if n.isLeaf then .ok index
      else
        match t.get n.left with
        | .error e => .error e
        | .ok l =>
          match t.get n.right with
          | .error e => .error e
          | .ok r =>
            let c := cost n.box leaf
            let cl := costChild n.box leaf l.box l.isLeaf
            let cr := costChild n.box leaf r.box r.isLeaf
            if c < cl ∧ c < cr then .ok index
            else if cl < cr then t.findSibling leaf fuel n.left
            else t.findSibling leaf fuel n.right

/-- `nodes[parent].left == node ? left = new : right = new`, or the new root, AABB_base.cc L774-792, L890-899 and
L943-952. -/
def Tree.replaceChild (t : Tree K) (parent node new : Nat) : Except Fault (Tree K) :=
  if parent ≠ nullNode then
    match t.get parent with
    | .error e => .error e
    | .ok p =>
      if p.left = node then t.upd parent (fun n => { n with left := new })
      else t.upd parent (fun n => { n with right := new })
  else .ok { t with root := new }

/-- Rotation of the right branch, AABB_base.cc L876-926. -/
def Tree.rotateRight (t : Tree K) (node left right : Nat) : Except Fault (Tree K × Nat) := do
  let r ← t.get right
  let rightLeft := r.left
  let rightRight := r.right
  let n ← t.get node
  let t ← t.upd right (fun m => { m with left := node, parent := n.parent })
  let t ← t.upd node (fun m => { m with parent := right })
  let t ← t.replaceChild n.parent node right
  let l ← t.get left
  let rl ← t.get rightLeft
  let rr ← t.get rightRight
  if rl.height > rr.height then
    let t ← t.upd right (fun m => { m with right := rightLeft })
    let t ← t.upd node (fun m => { m with right := rightRight })
    let t ← t.upd rightRight (fun m => { m with parent := node })
    let b := merge l.box rr.box
    let h := 1 + max l.height rr.height
    let t ← t.upd node (fun m => { m with box := b, height := h })
    let t ← t.upd right (fun m => { m with box := merge b rl.box, height := 1 + max h rl.height })
    return (t, right)
  else
    let t ← t.upd right (fun m => { m with right := rightRight })
    let t ← t.upd node (fun m => { m with right := rightLeft })
    let t ← t.upd rightLeft (fun m => { m with parent := node })
    let b := merge l.box rl.box
    let h := 1 + max l.height rl.height
    let t ← t.upd node (fun m => { m with box := b, height := h })
    let t ← t.upd right (fun m => { m with box := merge b rr.box, height := 1 + max h rr.height })
    return (t, right)

/-- Rotation of the left branch, AABB_base.cc L929-979. -/
def Tree.rotateLeft (t : Tree K) (node left right : Nat) : Except Fault (Tree K × Nat) := do
  let l ← t.get left
  let leftLeft := l.left
  let leftRight := l.right
  let n ← t.get node
  let t ← t.upd left (fun m => { m with left := node, parent := n.parent })
  let t ← t.upd node (fun m => { m with parent := left })
  let t ← t.replaceChild n.parent node left
  let r ← t.get right
  let ll ← t.get leftLeft
  let lr ← t.get leftRight
  if ll.height > lr.height then
    let t ← t.upd left (fun m => { m with right := leftLeft })
    let t ← t.upd node (fun m => { m with left := leftRight })
    let t ← t.upd leftRight (fun m => { m with parent := node })
    let b := merge r.box lr.box
    let h := 1 + max r.height lr.height
    let t ← t.upd node (fun m => { m with box := b, height := h })
    let t ← t.upd left (fun m => { m with box := merge b ll.box, height := 1 + max h ll.height })
    return (t, left)
  else
    let t ← t.upd left (fun m => { m with right := leftRight })
    let t ← t.upd node (fun m => { m with left := leftLeft })
    let t ← t.upd leftLeft (fun m => { m with parent := node })
    let b := merge r.box ll.box
    let h := 1 + max r.height ll.height
    let t ← t.upd node (fun m => { m with box := b, height := h })
    let t ← t.upd left (fun m => { m with box := merge b lr.box, height := 1 + max h lr.height })
    return (t, left)

/-- `balance`, AABB_base.cc L860-982. -/
def Tree.balance (t : Tree K) (node : Nat) : Except Fault (Tree K × Nat) := do
  let n ← t.get node
  if n.isLeaf ∨ n.height < 2 then return (t, node)
  else
    let l ← t.get n.left
    let r ← t.get n.right
    let currentBalance := r.height - l.height
    if currentBalance > 1 then t.rotateRight node n.left n.right
    else if currentBalance < -1 then t.rotateLeft node n.left n.right
    else return (t, node)

/-- The loop that walks back to the root, AABB_base.cc L796-810. -/
def Tree.fixUp (t : Tree K) : Nat → Nat → Except Fault (Tree K)
  | 0, _ => .error .diverges
  | fuel + 1, index =>
    if index = nullNode then .ok t
    else do
      let (t, index) ← t.balance index
      let n ← t.get index
      let l ← t.get n.left
      let r ← t.get n.right
      let t ← t.upd index (fun m => { m with height := 1 + max l.height r.height, box := merge l.box r.box })
      let n ← t.get index
      Tree.fixUp t fuel n.parent

/-- The new parent of the leaf and its sibling, AABB_base.cc L766-792. -/
def Tree.attach (junk : Node K) (t : Tree K) (leaf : Nat) (leafBox : Box K) (sibling : Nat) : Except Fault (Tree K) := do
  let s ← t.get sibling
  let oldParent := s.parent
  let (t, newParent) ← t.allocate junk
  let t ← t.upd newParent (fun m => { m with parent := oldParent, box := merge leafBox s.box, height := s.height + 1 })
  let t ← t.replaceChild oldParent sibling newParent
  let t ← t.upd newParent (fun m => { m with left := sibling, right := leaf })
  let t ← t.upd sibling (fun m => { m with parent := newParent })
  t.upd leaf (fun m => { m with parent := newParent })

/-- `insertLeaf`, AABB_base.cc L690-811. -/
def Tree.insertLeaf (junk : Node K) (t : Tree K) (leaf : Nat) : Except Fault (Tree K) := do
  if t.root = nullNode then
    let t : Tree K := { t with root := leaf }
    t.upd leaf (fun m => { m with parent := nullNode })
  else
    let n ← t.get leaf
    let sibling ← t.findSibling n.box (t.nodes.length + 1) t.root
    let t ← t.attach junk leaf n.box sibling
    let n ← t.get leaf
    t.fixUp (t.nodes.length + 1) n.parent

/-- `insertParticle` with bounds, AABB_base.cc L393-447; the skin thickness is zero (aabb_tree.h L52), so the box
is stored as given. -/
def Tree.insertParticle (junk : Node K) (t : Tree K) (particle : Nat) (box : Box K) : Except Fault (Tree K) := do
  if t.particleMap.any (fun e => e.1 == particle) then .error .error
  else
    let (t, node) ← t.allocate junk
    if box.lower.x > box.upper.x ∨ box.lower.y > box.upper.y ∨ box.lower.z > box.upper.z then .error .error
    else
      let t ← t.upd node (fun m => { m with box := box, height := 0 })
      let t ← t.insertLeaf junk node
      let t : Tree K := { t with particleMap := t.particleMap ++ [(particle, node)] }
      t.upd node (fun m => { m with particle := particle })

/-- The constructor of `AABB_tree`, aabb_tree.h L51-82, for the boxes of the triangles in order: particle `i` is the
`i`-th box. -/
def Tree.insertAll (junk : Node K) : List (Box K) → Nat → Tree K → Except Fault (Tree K)
  | [], _, t => .ok t
  | b :: rest, i, t =>
    match t.insertParticle junk i b with
    | .error e => .error e
    | .ok t => Tree.insertAll junk rest (i + 1) t

def Tree.build (junk : Node K) (boxes : List (Box K)) : Except Fault (Tree K) := Tree.insertAll junk boxes 0 (Tree.new junk)

/-- The loop of `AABB_tree::Query`, aabb_tree.cpp L43-68.  `test` is the intersection test of the given primitive; the
list `stack` has its top at the head.  As in the code, the node is read before it is compared to `NULL_NODE`. -/
def Tree.queryLoop (t : Tree K) (test : Box K → Bool) : Nat → List Nat → List Nat → Except Fault (List Nat)
  | _, [], acc => .ok acc
  | 0, _ :: _, _ => .error .diverges
  | fuel + 1, node :: stack, acc =>
    match t.get node with
    | .error e => .error e
    | .ok n =>
      match mk? n.box.lower n.box.upper with
      | none => .error .error
      | some b =>
        if node = nullNode then t.queryLoop test fuel stack acc
        else if test b then
          if n.isLeaf then t.queryLoop test fuel stack (acc ++ [n.particle])
          else t.queryLoop test fuel (n.right :: n.left :: stack) acc
        else t.queryLoop test fuel stack acc

/-- `AABB_tree::Query`, aabb_tree.cpp L35-70. -/
def Tree.query (t : Tree K) (test : Box K → Bool) : Except Fault (List Nat) :=
  t.queryLoop test (t.nodes.length + 1) [t.root] []

end QuESo.AABBTree
