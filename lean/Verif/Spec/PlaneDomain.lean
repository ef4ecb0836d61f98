import Verif.Model.PlaneDomain
import Verif.Spec.Clip

/-!
# What the cut of a solid with a face of a cell should do
-/
namespace QuESo.Plane
variable {K : Type} [Field K] [LinearOrder K]

/-- Two points of the plane that count as one: closer than the tolerance in both directions. -/
def near (tol : K) (a b : P2 K) : Prop := |a.x - b.x| < tol ∧ |a.y - b.y| ≤ tol

/-- The elements of a set from left to right. -/
def Tree.toList : Tree K → List (Nat × P2 K)
  | .leaf => []
  | .node l i p r => l.toList ++ (i, p) :: r.toList

/-- What is known about the library functions and the constants: the tolerances are positive, rebalancing a tree
keeps its elements in order, sorting permutes, and the sort of points by the first coordinate does sort. -/
structure Params.Sound (P : Params K) : Prop where
  tol_pos : 0 < P.tol
  zt_pos : 0 < P.zt
  bal : ∀ t, (P.bal t).toList = t.toList
  sortE : ∀ vs es, (P.sortE vs es).Perm es
  sortP : ∀ ps, (P.sortP ps).Perm ps
  sortP_sorted : ∀ ps, (P.sortP ps).Pairwise (fun a b => a.x ≤ b.x)

/-- An edge as it is given: two ends in space and a normal. -/
abbrev Given (K : Type) := V3 K × V3 K × V3 K

/-- The given edges of one orientation. -/
def Params.ofOrient (P : Params K) (o : Orient) (es : List (Given K)) : List (Given K) :=
  es.filter fun e => decide (P.orient e.1 e.2.1 e.2.2 = some o)

/-- A stored edge stands for a given one: its two vertices exist, its left and right vertex are the left and right
end up to the tolerance, and it has the normal. -/
def Params.standsFor (P : Params K) (c : Cont K) (f : Edge K) (e : Given K) : Prop :=
  (∃ p, c.verts[f.v1]? = some p ∧ near P.tol p (P.ends e.1 e.2.1).1) ∧
  (∃ p, c.verts[f.v2]? = some p ∧ near P.tol p (P.ends e.1 e.2.1).2) ∧
  f.v1 ≠ f.v2 ∧ f.normal = P.proj e.2.2

/-- A given edge that may be left out: its ends are the same point up to twice the tolerance. -/
def Params.tiny (P : Params K) (e : Given K) : Prop := near (2 * P.tol) (P.ends e.1 e.2.1).1 (P.ends e.1 e.2.1).2

/-- A point on an edge, away from its ends by the tolerance. -/
def Params.onEdge (P : Params K) (a b q : P2 K) : Prop :=
  a.x + P.tol ≤ q.x ∧ q.x ≤ b.x - P.tol ∧ (q.y - a.y) * (b.x - a.x) = (b.y - a.y) * (q.x - a.x)

/-- The consecutive pairs of a polyline. -/
def pieces : List (P2 K) → List (P2 K × P2 K)
  | a :: b :: rest => (a, b) :: pieces (b :: rest)
  | _ => []

/-- The ends of an edge and its normal. -/
def Cont.ends (c : Cont K) (e : Edge K) : P2 K × P2 K := (c.pt e.v1, c.pt e.v2)

/-- The area between an edge and the first axis. -/
def under (e : P2 K × P2 K) : K := (e.2.x - e.1.x) * (e.1.y + e.2.y) / 2

/-- The directions are those of one of the three planes. -/
def Params.Axes (P : Params K) : Prop := ∃ plane, dirs plane P.switch = some (P.d1, P.d2, P.d3)

/-- The coordinate of the face of the cell. -/
def Params.face (P : Params K) : K := if P.upper then P.up.get P.d3 else P.lo.get P.d3

/-- The unit vector that points out of the cell. -/
def Params.outward (P : Params K) : V3 K := (⟨0, 0, 0⟩ : V3 K).set P.d3 (if P.upper then 1 else -1)

/-- The point is in the rectangle with the given corners. -/
def Rect (l u q : P2 K) : Prop := (l.x ≤ q.x ∧ q.x ≤ u.x) ∧ l.y ≤ q.y ∧ q.y ≤ u.y

/-- Twice the signed area of a closed polygon of the plane; positive if it is passed counter-clockwise. -/
def area2 (l : List (P2 K)) : K :=
  ((Spec.cyclicPairs l).map fun e => e.1.x * e.2.y - e.1.y * e.2.x).sum

/-- The direction that belongs to the outward normal of the face. -/
def Params.turn (P : Params K) : K := if P.upper ^^ P.switch then 1 else -1

/-- A quantity of edges in space as a quantity of edges of the face. -/
def Params.along (P : Params K) (g : V3 K → V3 K → K) (p q : P2 K) : K := g (P.lift p) (P.lift q)

/-- The sum of a quantity over the edges of a closed polygon of the plane. -/
def around (Q : P2 K → P2 K → K) (l : List (P2 K)) : K := ((Spec.cyclicPairs l).map fun e => Q e.1 e.2).sum

/-- The polygon below a positive edge from `a` to `b`: down to the partner edge, or to the lower bound of the cell.
If the edge meets its partner at an end the polygon is a triangle. -/
def Params.strip (P : Params K) (s : State K) (e : Edge K) : List (P2 K) :=
  let a := s.pos.pt e.v1
  let b := s.pos.pt e.v2
  match P.partner s.neg a b e.normal with
  | none => [a, ⟨a.x, P.lo.get P.d2⟩, ⟨b.x, P.lo.get P.d2⟩, b]
  | some f =>
    let la := s.neg.pt f.v1
    let lb := s.neg.pt f.v2
    if |la.y - a.y| < P.tol then [la, lb, b]
    else if |lb.y - b.y| < P.tol then [la, lb, a]
    else [a, la, lb, b]

/-- The strip below an edge is not turned over: the lower edge has the same ends in the first direction and is not
above the upper edge. -/
def Params.Upright (P : Params K) (s : State K) (e : Edge K) : Prop :=
  let a := s.pos.pt e.v1
  let b := s.pos.pt e.v2
  a.x ≤ b.x ∧
  match P.partner s.neg a b e.normal with
  | none => P.lo.get P.d2 ≤ a.y ∧ P.lo.get P.d2 ≤ b.y
  | some f => (s.neg.pt f.v1).x = a.x ∧ (s.neg.pt f.v2).x = b.x ∧ (s.neg.pt f.v1).y ≤ a.y ∧ (s.neg.pt f.v2).y ≤ b.y

/-- The area between an edge and the edge or bound below it. -/
def Params.below (P : Params K) (s : State K) (e : Edge K) : K :=
  let a := s.pos.pt e.v1
  let b := s.pos.pt e.v2
  under (a, b) - match P.partner s.neg a b e.normal with
    | none => under (⟨a.x, P.lo.get P.d2⟩, ⟨b.x, P.lo.get P.d2⟩)
    | some f => under (s.neg.ends f)

/-- A point on the line through the ends of an edge. -/
def onLine (e : P2 K × P2 K) (q : P2 K) : Prop := (q.y - e.1.y) * (e.2.x - e.1.x) = (e.2.y - e.1.y) * (q.x - e.1.x)

/-- The second edge is a part of the first one, both from left to right. -/
def portion (e f : P2 K × P2 K) : Prop :=
  e.1.x < e.2.x ∧ e.1.x ≤ f.1.x ∧ f.1.x ≤ f.2.x ∧ f.2.x ≤ e.2.x ∧ onLine e f.1 ∧ onLine e f.2

/-- The area below all edges of a container. -/
def Cont.under (c : Cont K) : K := (c.edges.map fun e => Plane.under (c.ends e)).sum

/-- One container is cut into another: the area below the edges is the same and every edge is an old one or a part of
an old one, with the same normal. -/
structure Cont.CutInto (c c' : Cont K) : Prop where
  under : c'.under = c.under
  edges : ∀ f ∈ c'.edges, ∃ e ∈ c.edges, f.normal = e.normal ∧ (c'.ends f = c.ends e ∨ portion (c.ends e) (c'.ends f))
  indices : ∀ f ∈ c'.edges, f.v1 < c'.verts.length ∧ f.v2 < c'.verts.length

/-- An edge below which counts as the partner of the edge from `a` to `b` with normal `n`: it has the same ends in the
first direction up to ten tolerances, its middle is behind the edge and not above it.  If its middle is on the edge,
the point a hundred tolerances outside the plane must not be inside the solid. -/
def Params.Eligible (P : Params K) (c : Cont K) (a b n : P2 K) (e : Edge K) : Prop :=
  let v1 := c.pt e.v1
  let v2 := c.pt e.v2
  let m : P2 K := ⟨(a.x + b.x) / 2, (a.y + b.y) / 2⟩
  let o : P2 K := ⟨(v1.x + v2.x) / 2, (v1.y + v2.y) / 2⟩
  let value := (o.x - m.x) * n.x + (o.y - m.y) * n.y
  (v1.x < m.x ∧ m.x < v2.x ∧ |a.x - v1.x| < 10 * P.tol ∧ |b.x - v2.x| < 10 * P.tol) ∧
  if |value| ≤ P.zt then
    P.inside ((P.lift m).set P.d3 (P.face + if P.upper then 100 * P.tol else -(100 * P.tol))) = false ∧ m.y - o.y > -P.zt
  else value < 0 ∧ m.y - o.y ≥ -P.zt

/-- How far the middle of an edge is below the middle of the edge from `a` to `b`. -/
def Cont.depth (c : Cont K) (a b : P2 K) (e : Edge K) : K :=
  (a.y + b.y) / 2 - ((c.pt e.v1).y + (c.pt e.v2).y) / 2

/-- Points that are clustered: in each direction two of them are closer than half the tolerance or farther apart than
the tolerance. -/
def Clustered (tol : K) (S : List (P2 K)) : Prop :=
  ∀ a ∈ S, ∀ b ∈ S, (|a.x - b.x| < tol / 2 ∨ tol < |a.x - b.x|) ∧ (|a.y - b.y| < tol / 2 ∨ tol < |a.y - b.y|)

/-- The ends of the given edges. -/
def Params.points (P : Params K) (es : List (Given K)) : List (P2 K) := es.flatMap fun e => [P.proj e.1, P.proj e.2.1]

/-- Points that are separated: in each direction two of them are equal or farther apart than twice the tolerance. -/
def Separated (tol : K) (S : List (P2 K)) : Prop :=
  ∀ a ∈ S, ∀ b ∈ S, (a.x = b.x ∨ 2 * tol < |a.x - b.x|) ∧ (a.y = b.y ∨ 2 * tol < |a.y - b.y|)

/-- The given edges are above the cell's lower side and below its upper side, and all of them face upwards: the solid is
below them and the middle of the cell above them is outside. -/
structure Params.Graph (P : Params K) (es : List (Given K)) : Prop where
  positive : ∀ e ∈ es, P.orient e.1 e.2.1 e.2.2 = some .positive
  separated : Separated P.tol (P.points es)
  top : ∀ p ∈ P.points es, p.y + 10 * P.tol ≤ P.up.get P.d2
  outside : ∀ y, (∀ p ∈ P.points es, p.y < y) → P.lo.get P.d2 < y → y < P.up.get P.d2 →
    P.inside (P.lift ⟨(P.lo.get P.d1 + P.up.get P.d1) / 2, y⟩) = false

/-- The area between the given edges and the lower side of the cell. -/
def Params.areaBelow (P : Params K) (es : List (Given K)) : K :=
  (es.map fun e => under (P.ends e.1 e.2.1) - P.lo.get P.d2 * ((P.ends e.1 e.2.1).2.x - (P.ends e.1 e.2.1).1.x)).sum

/-- What the closing edges change: edges on the upper side, facing upwards, are added behind the others. -/
structure Params.ToppedUp (P : Params K) (c c' : Cont K) : Prop where
  indices : ∀ e ∈ c'.edges, e.v1 < c'.verts.length ∧ e.v2 < c'.verts.length
  verts : c.verts <+: c'.verts
  edges : ∃ new, c'.edges = c.edges ++ new ∧ ∀ e ∈ new, e.split = [] ∧ e.normal = ⟨0, 1⟩ ∧
    |(c'.ends e).1.y - P.up.get P.d2| ≤ P.tol ∧ |(c'.ends e).2.y - P.up.get P.d2| ≤ P.tol

end QuESo.Plane
