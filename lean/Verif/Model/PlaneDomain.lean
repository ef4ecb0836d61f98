import Verif.Model.BRep

/-!
# The cut of a solid with a face of a cell

Models `queso/embedding/trimmed_domain_on_plane.h/.cpp` over an exact ordered field.  The two in-plane directions
`DIRINDEX1` and `DIRINDEX2` are the first and second coordinate of the points of the plane.

Vectors have a length and a capacity: an insertion into a full vector moves it, and iterators or references that
are used after that are undefined behaviour (`Fault.ub`).  Every access goes through a vertex index; a function
that looks at all edges of a container first checks that their indices are in range (`ub` otherwise).

Simplification: there is no rounding.
-/
namespace QuESo.Plane
open QuESo.AABBTree (Fault)
variable {K : Type} [Field K] [LinearOrder K]

/-- `Point2DType`, trimmed_domain_on_plane.h L59. -/
structure P2 (K : Type) where
  x : K
  y : K
  deriving DecidableEq

/-- `Orientation`, trimmed_domain_on_plane.h L52. -/
inductive Orient | positive | negative | vertical
  deriving DecidableEq

/-- `PointComparison`, trimmed_domain_on_plane.h L63-75. -/
def less (tol : K) (a b : P2 K) : Bool :=
  if |a.x - b.x| < tol then decide (a.y < b.y - tol) else decide (a.x ≤ b.x - tol)

/-- The `std::set` of iterators, trimmed_domain_on_plane.h L77: a binary tree whose nodes hold the position of
the vertex in its vector and the vertex itself. -/
inductive Tree (K : Type)
  | leaf
  | node (l : Tree K) (i : Nat) (p : P2 K) (r : Tree K)

/-- The descent of `std::set::find` (libstdc++ `_M_lower_bound`): `y` is the last node that is not less. -/
def Tree.lowerBound (tol : K) (key : P2 K) : Tree K → Option (Nat × P2 K) → Option (Nat × P2 K)
  | .leaf, y => y
  | .node l i p r, y => if less tol p key then r.lowerBound tol key y else l.lowerBound tol key (some (i, p))

/-- `std::set::find` (libstdc++): `none` is `end()`. -/
def Tree.find (tol : K) (t : Tree K) (key : P2 K) : Option Nat :=
  match t.lowerBound tol key none with
  | none => none
  | some (i, p) => if less tol key p then none else some i

/-- `std::set::insert` (libstdc++ `_M_get_insert_unique_pos`) without the rebalancing: `pred` is the in-order
predecessor of the place that is reached, `none` as result means that an equivalent element exists. -/
def Tree.insertAt (tol : K) (i : Nat) (p : P2 K) : Tree K → Option (P2 K) → Option (Tree K)
  | .leaf, none => some (.node .leaf i p .leaf)
  | .leaf, some q => if less tol q p then some (.node .leaf i p .leaf) else none
  | .node l j q r, pred =>
    if less tol p q then (l.insertAt tol i p pred).map fun l => .node l j q r
    else (r.insertAt tol i p (some q)).map fun r => .node l j q r

/-- `std::set::insert`; `bal` is the rebalancing of the tree. -/
def Tree.insert (tol : K) (bal : Tree K → Tree K) (t : Tree K) (i : Nat) (p : P2 K) : Tree K :=
  match t.insertAt tol i p none with
  | none => t
  | some t' => bal t'

/-- `Edge2D`, trimmed_domain_on_plane.h L84-113. -/
structure Edge (K : Type) where
  v1 : Nat
  v2 : Nat
  normal : P2 K
  split : List (P2 K)
  on1 : Bool
  on2 : Bool

/-- The vertices, the set of vertices and the edges of one orientation, trimmed_domain_on_plane.h L438-450.
`stale`: the set holds iterators into memory the vector of vertices does not use any more. -/
structure Cont (K : Type) where
  verts : List (P2 K)
  vcap : Nat
  set : Tree K
  stale : Bool
  edges : List (Edge K)
  ecap : Nat

/-- The constructor's empty containers after `Reserve(n)`, trimmed_domain_on_plane.h L199-206 (the capacity is exactly the requested one). -/
def Cont.empty (n : Nat) : Cont K := ⟨[], n, .leaf, false, [], n⟩

/-- The set is not empty. -/
def Tree.nonempty : Tree K → Bool
  | .leaf => false
  | .node .. => true

/-- `r_vertices.push_back`, trimmed_domain_on_plane.cpp L649 and L658. -/
def Cont.pushVertex (c : Cont K) (p : P2 K) : Cont K :=
  if c.verts.length < c.vcap then { c with verts := c.verts ++ [p] }
  else { c with verts := c.verts ++ [p], vcap := 2 * c.vcap + 1, stale := c.stale || c.set.nonempty }

/-- `r_edges.push_back`, trimmed_domain_on_plane.cpp L600.  No reference into the vector is alive there. -/
def Cont.pushEdge (c : Cont K) (e : Edge K) : Cont K :=
  { c with edges := c.edges ++ [e], ecap := if c.edges.length < c.ecap then c.ecap else 2 * c.ecap + 1 }

/-- `find` in the set of vertices; `ub` if the set holds dead iterators. -/
def Cont.find (tol : K) (c : Cont K) (p : P2 K) : Except Fault (Option Nat) :=
  if c.stale then .error .ub else .ok (c.set.find tol p)

/-- `InsertVertex` with index, trimmed_domain_on_plane.cpp L653-665. -/
def Cont.insertVertex (tol : K) (bal : Tree K → Tree K) (c : Cont K) (p : P2 K) (idx : Nat) : Except Fault (Cont K) :=
  if idx = c.verts.length then
    let c1 := c.pushVertex p
    if c1.stale then .error .ub else .ok { c1 with set := c1.set.insert tol bal idx p }
  else if idx > c.verts.length then .error .error
  else .ok c

/-- `GetUniqueVertexIDs`, trimmed_domain_on_plane.cpp L753-794. -/
def Cont.uniqueIds (tol : K) (c : Cont K) (v1 v2 : P2 K) : Except Fault (Nat × Nat) :=
  if !less tol v1 v2 && !less tol v2 v1 then .ok (0, 0)
  else
    match c.find tol v1, c.find tol v2 with
    | .error e, _ => .error e
    | _, .error e => .error e
    | .ok r1, .ok r2 =>
      if r1 = r2 ∧ r1.isSome then .ok (0, 0)
      else
        .ok (r1.getD c.verts.length,
          r2.getD (c.verts.length + if r1.isSome then 0 else 1))

/-- `InsertEdge` in two dimensions, trimmed_domain_on_plane.cpp L592-604. -/
def Cont.insertEdge (tol : K) (bal : Tree K → Tree K) (c : Cont K) (v1 v2 n : P2 K) : Except Fault (Cont K) :=
  match c.uniqueIds tol v1 v2 with
  | .error e => .error e
  | .ok (i1, i2) =>
    if i1 ≠ i2 then
      match c.insertVertex tol bal v1 i1 with
      | .error e => .error e
      | .ok c =>
        match c.insertVertex tol bal v2 i2 with
        | .error e => .error e
        | .ok c => .ok (c.pushEdge ⟨i1, i2, n, [], false, false⟩)
    else .ok c

/-- The members of `TrimmedDomainOnPlane` that do not change, trimmed_domain_on_plane.h L453-465, the constants
`ZEROTOL` and `MAXD`, and what the code gets from elsewhere: `inside` answers `IsInside` of the trimmed domain,
`bal` rebalances the sets, `sortE` and `sortP` are the two calls of `std::sort`. -/
structure Params (K : Type) where
  d1 : Nat
  d2 : Nat
  d3 : Nat
  upper : Bool
  switch : Bool
  lo : V3 K
  up : V3 K
  tol : K
  zt : K
  maxd : K
  inside : V3 K → Bool
  bal : Tree K → Tree K
  sortE : List (P2 K) → List (Edge K) → List (Edge K)
  sortP : List (P2 K) → List (P2 K)

/-- The choice of the directions by the constructor, trimmed_domain_on_plane.h L133-165: (`DIRINDEX1`,
`DIRINDEX2`, `DIRINDEX3`). -/
def dirs (plane : Nat) (switch : Bool) : Option (Nat × Nat × Nat) :=
  if plane = 2 then some (if switch then (1, 0, 2) else (0, 1, 2))
  else if plane = 1 then some (if switch then (0, 2, 1) else (2, 0, 1))
  else if plane = 0 then some (if switch then (2, 1, 0) else (1, 2, 0))
  else none

/-- The three containers. -/
structure State (K : Type) where
  pos : Cont K
  neg : Cont K
  ver : Cont K

/-- `GetEdges`, `GetVertices`, `GetVerticesSet`, trimmed_domain_on_plane.cpp L824-910. -/
def State.get (s : State K) : Orient → Cont K
  | .positive => s.pos
  | .negative => s.neg
  | .vertical => s.ver

/-- Change of one container. -/
def State.put (s : State K) (o : Orient) (c : Cont K) : State K :=
  match o with
  | .positive => { s with pos := c }
  | .negative => { s with neg := c }
  | .vertical => { s with ver := c }

/-- The point of the plane, trimmed_domain_on_plane.cpp L613-620. -/
def Params.proj (P : Params K) (p : V3 K) : P2 K := ⟨p.get P.d1, p.get P.d2⟩

/-- The two ends from left to right, trimmed_domain_on_plane.cpp L613-620. -/
def Params.ends (P : Params K) (a b : V3 K) : P2 K × P2 K :=
  if b.get P.d1 > a.get P.d1 then (P.proj a, P.proj b) else (P.proj b, P.proj a)

/-- The container an edge belongs to, trimmed_domain_on_plane.cpp L625-643 (`none`: the edge is ignored). -/
def Params.orient (P : Params K) (a b n : V3 K) : Option Orient :=
  let e := P.ends a b
  if |e.1.x - e.2.x| > P.tol then
    if n.get P.d2 > P.zt then some .positive
    else if n.get P.d2 < -P.zt then some .negative
    else if |e.1.y - e.2.y| > P.tol then some .vertical else none
  else if |e.1.y - e.2.y| > P.tol then some .vertical else none

/-- `InsertEdge` in three dimensions, trimmed_domain_on_plane.cpp L606-644. -/
def Params.insertEdge3 (P : Params K) (s : State K) (a b n : V3 K) : Except Fault (State K) :=
  match P.orient a b n with
  | none => .ok s
  | some o =>
    match (s.get o).insertEdge P.tol P.bal (P.ends a b).1 (P.ends a b).2 (P.proj n) with
    | .error e => .error e
    | .ok c => .ok (s.put o c)

/-- `SignedAxis`, trimmed_domain_on_plane.cpp L33. -/
def Params.axis (P : Params K) : Nat := P.d3 * 2 + if P.upper then 1 else 0

/-- The loop over the edges of the mesh, trimmed_domain_on_plane.cpp L38-43. -/
def Params.collectLoop (P : Params K) : List (V3 K × V3 K × V3 K) → State K → Except Fault (State K)
  | [], s => .ok s
  | (a, b, n) :: rest, s =>
    match P.insertEdge3 s a b n with
    | .error e => .error e
    | .ok s => P.collectLoop rest s

/-- `CollectEdgesOnPlane`, trimmed_domain_on_plane.cpp L31-44, for the given edges (ends and normal of the
triangle). -/
def Params.collect (P : Params K) (es : List (V3 K × V3 K × V3 K)) : Except Fault (State K) :=
  let n := max (3 * es.length) 10
  P.collectLoop es ⟨.empty n, .empty n, .empty n⟩

/-! ## Closing the contour -/

/-- `V1byEdgeId` and the like, trimmed_domain_on_plane.cpp L796-822: the vertex with an index; callers check the
index. -/
def Cont.pt (c : Cont K) (i : Nat) : P2 K := c.verts.getD i ⟨0, 0⟩

/-- All edges refer to vertices of the container. -/
def Cont.inRange (c : Cont K) : Bool :=
  c.edges.all fun e => decide (e.v1 < c.verts.length) && decide (e.v2 < c.verts.length)

/-- `FindIntersectingEdgesWithUpperBound`, trimmed_domain_on_plane.cpp L387-423.  The comparison the code sorts
with is not a strict weak order in general, hence the sort is a parameter. -/
def Params.intersecting (P : Params K) (c : Cont K) : List (Edge K) :=
  let top := P.up.get P.d2
  P.sortE c.verts (c.edges.filterMap fun e =>
    let on1 := decide (|(c.pt e.v1).y - top| < 10 * P.tol)
    let on2 := decide (|(c.pt e.v2).y - top| < 10 * P.tol)
    if on1 ^^ on2 then some { e with on1 := on1, on2 := on2 } else none)

/-- `std::unique` after its first element `last`. -/
def uniqueFrom {α : Type} (same : α → α → Bool) (last : α) : List α → List α
  | [] => [last]
  | a :: rest => if same last a then uniqueFrom same last rest else last :: uniqueFrom same a rest

/-- `std::unique` and `erase`. -/
def uniqueBy {α : Type} (same : α → α → Bool) : List α → List α
  | [] => []
  | a :: rest => uniqueFrom same a rest

/-- `RemoveDublicateVerticalEdges`, trimmed_domain_on_plane.cpp L716-738. -/
def Params.dedupVertical (P : Params K) (c : Cont K) (es : List (Edge K)) : List (Edge K) :=
  let close := fun a b : Edge K => decide (|(c.pt a.v1).x - (c.pt b.v1).x| < P.tol)
  let es := uniqueBy (fun a b => (decide (a.normal.x < 0) == decide (b.normal.x < 0)) && close a b) es
  es.filter fun e => (es.filter fun f => close e f).length == 1

/-- `RemoveDublicateEdges`, trimmed_domain_on_plane.cpp L740-747. -/
def Params.dedup (P : Params K) (c : Cont K) (es : List (Edge K)) : List (Edge K) :=
  uniqueBy (fun a b => decide (|(c.pt a.v1).x - (c.pt b.v1).x| < P.tol) && decide (|(c.pt a.v2).x - (c.pt b.v2).x| < P.tol)) es

/-- `AddIntersectedVertexPositive`, trimmed_domain_on_plane.cpp L667-683. -/
def Params.addPositive (P : Params K) (c : Cont K) (e : Edge K) : List (K × Bool) :=
  if e.on1 then (if e.normal.x > -P.zt then [((c.pt e.v1).x, false)] else [])
  else if e.on2 then (if e.normal.x < P.zt then [((c.pt e.v2).x, true)] else [])
  else []

/-- `AddIntersectedVertexNegative`, trimmed_domain_on_plane.cpp L685-701. -/
def Params.addNegative (P : Params K) (c : Cont K) (e : Edge K) : List (K × Bool) :=
  if e.on1 then (if e.normal.x < P.zt then [((c.pt e.v1).x, true)] else [])
  else if e.on2 then (if e.normal.x > -P.zt then [((c.pt e.v2).x, false)] else [])
  else []

/-- `AddIntersectedVertexVertical`, trimmed_domain_on_plane.cpp L703-714. -/
def Params.addVertical (P : Params K) (c : Cont K) (e : Edge K) : List (K × Bool) :=
  if e.on1 || e.on2 then (if e.normal.x < P.zt then [((c.pt e.v1).x, true)] else [((c.pt e.v1).x, false)])
  else []

/-- The distance of the next edge from the left bound, trimmed_domain_on_plane.cpp L114-147. -/
def Params.distance (P : Params K) (c : Cont K) : List (Edge K) → K
  | [] => P.maxd
  | e :: _ => |(c.pt (if e.on1 then e.v1 else e.v2)).x - P.lo.get P.d1|

/-- The loop over the intersected edges, trimmed_domain_on_plane.cpp L98-177.  The first argument bounds the number
of passes; each pass takes at least one edge, hence the number of edges is enough (`none`: the loop does not
end). -/
def Params.mergeLoop (P : Params K) (s : State K) :
    Nat → List (Edge K) → List (Edge K) → List (Edge K) → List (K × Bool) → Except Fault (List (K × Bool))
  | fuel, pos, neg, ver, out =>
    if pos.isEmpty && neg.isEmpty && ver.isEmpty then .ok out
    else
      match fuel with
      | 0 => .error .diverges
      | fuel + 1 =>
        let dp := P.distance s.pos pos
        let dn := P.distance s.neg neg
        let dv := P.distance s.ver ver
        let m := min (min dp dn) dv
        let fp := decide (dp < m + P.tol)
        let fn := decide (dn < m + P.tol)
        let fv := decide (dv < m + P.tol)
        if fp.toNat + fn.toNat + fv.toNat > 1 then
          P.mergeLoop s fuel (if fp then pos.tail else pos) (if fn then neg.tail else neg) (if fv then ver.tail else ver) out
        else if fp then
          match pos with
          | [] => .error .ub
          | e :: rest => P.mergeLoop s fuel rest neg ver (out ++ P.addPositive s.pos e)
        else if fn then
          match neg with
          | [] => .error .ub
          | e :: rest => P.mergeLoop s fuel pos rest ver (out ++ P.addNegative s.neg e)
        else if fv then
          match ver with
          | [] => .error .ub
          | e :: rest => P.mergeLoop s fuel pos neg rest (out ++ P.addVertical s.ver e)
        else P.mergeLoop s fuel pos neg ver out

/-- `PointExists` in none of the three sets, trimmed_domain_on_plane.cpp L81-84 and L941-945. -/
def Params.missing (P : Params K) (s : State K) (p : P2 K) : Except Fault Bool :=
  match s.pos.find P.tol p with
  | .error e => .error e
  | .ok (some _) => .ok false
  | .ok none =>
    match s.neg.find P.tol p with
    | .error e => .error e
    | .ok (some _) => .ok false
    | .ok none =>
      match s.ver.find P.tol p with
      | .error e => .error e
      | .ok r => .ok r.isNone

/-- `GetMaxDIRINDEX2`, trimmed_domain_on_plane.cpp L931-939. -/
def Params.maxY (P : Params K) (ps : List (P2 K)) : K :=
  ps.foldl (fun m p => if p.y > m then p.y else m) (-P.maxd)

/-- `GetPlanePosition`, trimmed_domain_on_plane.cpp L927-929. -/
def Params.position (P : Params K) : K := if P.upper then P.up.get P.d3 else P.lo.get P.d3

/-- A point of the plane in space, trimmed_domain_on_plane.cpp L202-205, L281-284 and L334-362. -/
def Params.lift (P : Params K) (p : P2 K) : V3 K :=
  ((((⟨0, 0, 0⟩ : V3 K).set P.d1 p.x).set P.d2 p.y).set P.d3 P.position)

/-- One closing edge on the upper bound, trimmed_domain_on_plane.cpp L208 and L218. -/
def Params.insertTop (P : Params K) (c : Cont K) (l r : K) : Except Fault (Cont K) :=
  c.insertEdge P.tol P.bal ⟨l, P.up.get P.d2⟩ ⟨r, P.up.get P.d2⟩ ⟨0, 1⟩

/-- The loop over consecutive intersected vertices, trimmed_domain_on_plane.cpp L213-220. -/
def Params.insertTops (P : Params K) : List (K × Bool) → Cont K → Except Fault (Cont K)
  | a :: b :: rest, c =>
    if a.2 && !b.2 then
      match P.insertTop c a.1 b.1 with
      | .error e => .error e
      | .ok c => P.insertTops (b :: rest) c
    else P.insertTops (b :: rest) c
  | _, c => .ok c

/-- The intersected vertices and the two flags of the corners after the loop, trimmed_domain_on_plane.cpp L63-188. -/
def Params.topVertices (P : Params K) (s : State K) : Except Fault (List (K × Bool) × Bool × Bool) :=
  if !(s.pos.inRange && s.neg.inRange && s.ver.inRange) then .error .ub
  else
    let ver := P.dedupVertical s.ver (P.intersecting s.ver)
    let pos := P.dedup s.pos (P.intersecting s.pos)
    let neg := P.dedup s.neg (P.intersecting s.neg)
    match P.missing s ⟨P.lo.get P.d1, P.up.get P.d2⟩, P.missing s ⟨P.up.get P.d1, P.up.get P.d2⟩ with
    | .error e, _ => .error e
    | _, .error e => .error e
    | .ok left, .ok right =>
      match P.mergeLoop s (pos.length + neg.length + ver.length) pos neg ver
          (if left then [(P.lo.get P.d1, true)] else []) with
      | .error e => .error e
      | .ok vs =>
        match vs.getLast? with
        | none => .ok (vs, left, false)
        | some v =>
          if right && decide (|v.1 - P.up.get P.d1| > P.tol) then .ok (vs ++ [(P.up.get P.d1, false)], left, true)
          else .ok (vs, left, false)

/-- The test point of the corner case, trimmed_domain_on_plane.cpp L190-205. -/
def Params.testPoint (P : Params K) (s : State K) (l r : K) : V3 K :=
  let yMax := max (max (P.maxY s.neg.verts) (P.maxY s.pos.verts)) (P.lo.get P.d2)
  P.lift ⟨l + 1 / 2 * (r - l), 1 / 2 * (P.up.get P.d2 + yMax)⟩

/-- The closing edges, trimmed_domain_on_plane.cpp L194-221. -/
def Params.insertClosing (P : Params K) (s : State K) (vs : List (K × Bool)) (left right : Bool) : Except Fault (Cont K) :=
  if left && right && decide (vs.length = 2) then
    match vs with
    | a :: b :: _ => if P.inside (P.testPoint s a.1 b.1) then P.insertTop s.pos a.1 b.1 else .ok s.pos
    | _ => .error .ub
  else P.insertTops vs s.pos

/-- The first part of `CloseContourEdges`, trimmed_domain_on_plane.cpp L46-221. -/
def Params.closeTop (P : Params K) (s : State K) : Except Fault (State K) :=
  match P.topVertices s with
  | .error e => .error e
  | .ok (vs, left, right) =>
    match P.insertClosing s vs left right with
    | .error e => .error e
    | .ok c => .ok { s with pos := c }

/-- The height of an edge at a position, trimmed_domain_on_plane.cpp L504 and L523. -/
def heightAt (v1 v2 : P2 K) (x : K) : K := v1.y + (v2.y - v1.y) / (v2.x - v1.x) * (x - v1.x)

/-- The first loop of `SetSplitPoint`, trimmed_domain_on_plane.cpp L495-511.  A division by zero gives an infinity or
a NaN in the code, with which the comparisons of L506 fail. -/
def Params.originDistance (P : Params K) (c : Cont K) (positive : Bool) (p : P2 K) : K :=
  c.edges.foldl (fun cur e =>
    let v1 := c.pt e.v1
    let v2 := c.pt e.v2
    if p.x > v1.x - P.tol ∧ p.x < v2.x + P.tol ∧ v2.x ≠ v1.x then
      let h := heightAt v1 v2 p.x
      let d := if positive then h - p.y else p.y - h
      if d < cur ∧ d > P.tol then d else cur
    else cur) (10 ^ 15)

/-- The second loop of `SetSplitPoint`, trimmed_domain_on_plane.cpp L513-534: current distance, edge and point. -/
def Params.destLoop (P : Params K) (c : Cont K) (positive : Bool) (p : P2 K) :
    Nat → List (Edge K) → K → Option (Nat × P2 K) → Option (Nat × P2 K)
  | _, [], _, found => found
  | i, e :: rest, cur, found =>
    let v1 := c.pt e.v1
    let v2 := c.pt e.v2
    if p.x ≥ v1.x + P.tol ∧ p.x ≤ v2.x - P.tol then
      let h := heightAt v1 v2 p.x
      let d := if positive then h - p.y else p.y - h
      if d < cur - P.zt ∧ d > P.tol then P.destLoop c positive p (i + 1) rest d (some (i, ⟨p.x, h⟩))
      else P.destLoop c positive p (i + 1) rest cur found
    else P.destLoop c positive p (i + 1) rest cur found

/-- `SetSplitPoint`, trimmed_domain_on_plane.cpp L483-539: `dest` gets the split point; `positive` says whether it is
the positive container. -/
def Params.setSplit (P : Params K) (positive : Bool) (origin dest : Cont K) (p : P2 K) : Cont K :=
  match P.destLoop dest positive p 0 dest.edges (P.originDistance origin positive p) none with
  | none => dest
  | some (i, q) => { dest with edges := dest.edges.modify i fun e => { e with split := e.split ++ [q] } }

/-- `InsertVertex` without index, trimmed_domain_on_plane.cpp L646-651, in `SplitEdgesAtSplitPoint`. -/
def Cont.newVertex (c : Cont K) (p : P2 K) : Cont K × Nat := (c.pushVertex p, c.verts.length)

/-- The pieces between the split points, trimmed_domain_on_plane.cpp L563-573: `prev` is the last split point that was
reached.  The result holds the new edges. -/
def splitRest (v2 : Nat) (n : P2 K) : P2 K → List (P2 K) → Cont K → Cont K × List (Edge K)
  | prev, [], c =>
    let a := c.newVertex prev
    (a.1, [⟨a.2, v2, n, [], false, false⟩])
  | prev, q :: rest, c =>
    let a := c.newVertex prev
    let b := a.1.newVertex q
    let r := splitRest v2 n q rest b.1
    (r.1, ⟨a.2, b.2, n, [], false, false⟩ :: r.2)

/-- The pieces of one edge, trimmed_domain_on_plane.cpp L555-573, for the sorted split points. -/
def splitPieces (e : Edge K) : List (P2 K) → Cont K → Cont K × List (Edge K)
  | [], c => (c, [])
  | q :: rest, c =>
    let b := c.newVertex q
    let r := splitRest e.v2 e.normal q rest b.1
    (r.1, ⟨e.v1, b.2, e.normal, [], false, false⟩ :: r.2)

/-- The loop of `SplitEdgesAtSplitPoint`, trimmed_domain_on_plane.cpp L548-585: `kept` are the edges in front of the
current one, `added` the new ones at the end.  The references `edge` and `split_points` (L549-550) are used after
`push_back`: if the vector moves this is undefined behaviour. -/
def Params.splitLoop (P : Params K) : List (Edge K) → List (Edge K) → List (Edge K) → Cont K → Except Fault (Cont K)
  | [], kept, added, c => .ok { c with edges := kept ++ added }
  | e :: rest, kept, added, c =>
    if e.split.length > 0 then
      if kept.length + (e :: rest).length + added.length + (e.split.length + 1) > c.ecap then .error .ub
      else
        let r := splitPieces e (P.sortP e.split) c
        P.splitLoop rest kept (added ++ r.2) r.1
    else P.splitLoop rest (kept ++ [e]) added c

/-- `SplitEdgesAtSplitPoint`, trimmed_domain_on_plane.cpp L541-586. -/
def Params.splitEdges (P : Params K) (c : Cont K) : Except Fault (Cont K) := P.splitLoop c.edges [] [] c

/-- The split points, trimmed_domain_on_plane.cpp L229-237. -/
def Params.setSplits (P : Params K) (s : State K) : State K :=
  let neg := s.pos.verts.foldl (fun neg p => P.setSplit false s.pos neg p) s.neg
  let pos := neg.verts.foldl (fun pos p => P.setSplit true neg pos p) s.pos
  { s with pos := pos, neg := neg }

/-- `CloseContourEdges`, trimmed_domain_on_plane.cpp L46-242. -/
def Params.close (P : Params K) (s : State K) : Except Fault (State K) :=
  match P.closeTop s with
  | .error e => .error e
  | .ok s =>
    if !(s.pos.inRange && s.neg.inRange) then .error .ub
    else
      let s := P.setSplits s
      match P.splitEdges s.neg with
      | .error e => .error e
      | .ok neg =>
        match P.splitEdges s.pos with
        | .error e => .error e
        | .ok pos => .ok { s with pos := pos, neg := neg }

/-! ## Triangulation -/

/-- The loop of `FindNegativePartnerEdge`, trimmed_domain_on_plane.cpp L431-479. -/
def Params.partnerLoop (P : Params K) (c : Cont K) (a b n : P2 K) :
    Nat → List (Edge K) → K → Option Nat → Option Nat
  | _, [], _, found => found
  | i, e :: rest, cur, found =>
    let v1 := c.pt e.v1
    let v2 := c.pt e.v2
    let cp : P2 K := ⟨1 / 2 * (a.x + b.x), 1 / 2 * (a.y + b.y)⟩
    if (cp.x > v1.x ∧ cp.x < v2.x) ∧ |a.x - v1.x| < 10 * P.tol ∧ |b.x - v2.x| < 10 * P.tol then
      let value := (1 / 2 * (v1.x + v2.x) - cp.x) * n.x + (1 / 2 * (v1.y + v2.y) - cp.y) * n.y
      let d := cp.y - 1 / 2 * (v1.y + v2.y)
      if |value| ≤ P.zt then
        let test := (P.lift cp).set P.d3 (if P.upper then P.position + 100 * P.tol else P.position - 100 * P.tol)
        if !P.inside test && decide (d > -P.zt ∧ d < cur) then P.partnerLoop c a b n (i + 1) rest d (some i)
        else P.partnerLoop c a b n (i + 1) rest cur found
      else if value < P.zt ∧ d ≥ -P.zt ∧ d < cur then P.partnerLoop c a b n (i + 1) rest d (some i)
      else P.partnerLoop c a b n (i + 1) rest cur found
    else P.partnerLoop c a b n (i + 1) rest cur found

/-- `FindNegativePartnerEdge`, trimmed_domain_on_plane.cpp L425-481. -/
def Params.partner (P : Params K) (c : Cont K) (a b n : P2 K) : Option (Edge K) :=
  (P.partnerLoop c a b n 0 c.edges P.maxd none).bind fun i => c.edges[i]?

/-- The normal of the plane, trimmed_domain_on_plane.cpp L246-253. -/
def Params.normal (P : Params K) : V3 K :=
  (⟨0, 0, 0⟩ : V3 K).set P.d3 (if P.upper then 1 else -1)

/-- One triangle, trimmed_domain_on_plane.cpp L281-298 and L308-325. -/
def Params.addCorner (P : Params K) (a b c : P2 K) (m : Clip.ClippedMesh K) : Clip.ClippedMesh K :=
  let n := m.mesh.vertices.length
  let vs := ((m.mesh.addVertex (P.lift a)).addVertex (P.lift b)).addVertex (P.lift c)
  ⟨vs.addTriangle (if P.upper ^^ P.switch then ⟨n, n + 1, n + 2⟩ else ⟨n + 1, n, n + 2⟩) P.normal, m.edges⟩

/-- The polygon with four vertices, trimmed_domain_on_plane.cpp L331-380; `none` is an error. -/
def Params.addQuad (P : Params K) (a b c d : P2 K) (m : Clip.ClippedMesh K) : Option (Clip.ClippedMesh K) :=
  let vs := if P.upper ^^ P.switch then [a, b, c, d] else [a, d, c, b]
  Clip.addToMesh (vs.map fun p => Clip.bare (P.lift p)) P.normal m

/-- One positive edge, trimmed_domain_on_plane.cpp L265-381. -/
def Params.addStrip (P : Params K) (s : State K) (e : Edge K) (m : Clip.ClippedMesh K) : Option (Clip.ClippedMesh K) :=
  let a := s.pos.pt e.v1
  let b := s.pos.pt e.v2
  match P.partner s.neg a b e.normal with
  | some f =>
    let la := s.neg.pt f.v1
    let lb := s.neg.pt f.v2
    if |la.y - a.y| < P.tol then some (P.addCorner la lb b m)
    else if |lb.y - b.y| < P.tol then some (P.addCorner la lb a m)
    else P.addQuad a la lb b m
  | none => P.addQuad a ⟨a.x, P.lo.get P.d2⟩ ⟨b.x, P.lo.get P.d2⟩ b m

/-- `TriangulateDomain`, trimmed_domain_on_plane.cpp L244-385. -/
def Params.triangulate (P : Params K) (s : State K) : Except Fault (Clip.ClippedMesh K) :=
  if !(s.pos.inRange && s.neg.inRange) then .error .ub
  else
    match s.pos.edges.foldlM (fun m e => P.addStrip s e m) (⟨Mesh.empty, fun _ => []⟩ : Clip.ClippedMesh K) with
    | none => .error .error
    | some m => .ok m

/-- `pGetTriangulation`, trimmed_domain_on_plane.h L191-195. -/
def Params.run (P : Params K) (es : List (V3 K × V3 K × V3 K)) : Except Fault (Clip.ClippedMesh K) :=
  match P.collect es with
  | .error e => .error e
  | .ok s =>
    match P.close s with
    | .error e => .error e
    | .ok s => P.triangulate s

end QuESo.Plane
