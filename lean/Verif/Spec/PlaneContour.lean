import Verif.Spec.PlaneDomain

/-!
# Where the contour of a face is cut, and how it is closed at the upper side
-/
namespace QuESo.Plane
variable {K : Type} [Field K] [LinearOrder K]

/-- The height of the line through the ends of an edge. -/
def heightOver (e : P2 K × P2 K) (x : K) : K := e.1.y + (e.2.y - e.1.y) * (x - e.1.x) / (e.2.x - e.1.x)

/-- How far a line is above a point (`up`) or below it. -/
def gap (up : Bool) (e : P2 K × P2 K) (p : P2 K) : K := if up then heightOver e p.x - p.y else p.y - heightOver e p.x

/-- The point is between the ends of the edge, away from them by the tolerance, and the edge is above (below) it by more than
the tolerance. -/
def Params.Target (P : Params K) (up : Bool) (e : P2 K × P2 K) (p : P2 K) : Prop :=
  e.1.x + P.tol ≤ p.x ∧ p.x ≤ e.2.x - P.tol ∧ P.tol < gap up e p

/-- The point is between the ends of the edge or at most the tolerance beside it, and the edge, which is not vertical, is above
(below) it by more than the tolerance. -/
def Params.Blocks (P : Params K) (up : Bool) (e : P2 K × P2 K) (p : P2 K) : Prop :=
  e.1.x - P.tol < p.x ∧ p.x < e.2.x + P.tol ∧ e.1.x ≠ e.2.x ∧ P.tol < gap up e p

/-- From the point `p` one sees, looking up (down), the edge `e` of `dest`: no edge of `origin` is in between, and of the edges of
`dest` it is the nearest (up to the small tolerance). -/
structure Params.Seen (P : Params K) (up : Bool) (origin dest : List (P2 K × P2 K)) (p : P2 K) (e : P2 K × P2 K) : Prop where
  target : P.Target up e p
  free : ∀ f ∈ origin, P.Blocks up f p → gap up e p + P.zt < gap up f p
  first : ∀ f ∈ dest, P.Target up f p → gap up e p ≤ gap up f p + P.zt

/-- From the point one does not see the edge `e`: it is farther away than the limit of the search, or an edge of `origin` is in
between or at the same distance (up to the small tolerance). -/
def Params.Hidden (P : Params K) (up : Bool) (origin : List (P2 K × P2 K)) (p : P2 K) (e : P2 K × P2 K) : Prop :=
  10 ^ 15 ≤ gap up e p + P.zt ∨ ∃ f ∈ origin, P.Blocks up f p ∧ gap up f p ≤ gap up e p + P.zt

/-- The edges `dest` are cut into the edges `dest'` exactly where they are seen from the points `ps`, looking up (down) past the
edges `origin`: `cuts` holds, for each edge, the points where it is cut, from left to right. -/
def Params.CutWhereSeen (P : Params K) (up : Bool) (ps : List (P2 K)) (origin dest dest' : List (P2 K × P2 K)) : Prop :=
  ∃ cuts : List (List (P2 K)), cuts.length = dest.length ∧
    dest'.Perm ((dest.zip cuts).flatMap fun c => pieces (c.1.1 :: (c.2 ++ [c.1.2]))) ∧
    (∀ c ∈ dest.zip cuts, c.2.Pairwise (fun a b => a.x ≤ b.x) ∧
      ∀ q ∈ c.2, ∃ p ∈ ps, P.Seen up origin dest p c.1 ∧ q = ⟨p.x, heightOver c.1 p.x⟩) ∧
    ∀ p ∈ ps, (∀ e ∈ dest, P.Target up e p → P.Hidden up origin p e) ∨
      ∃ c ∈ dest.zip cuts, P.Seen up origin dest p c.1 ∧ (⟨p.x, heightOver c.1 p.x⟩ : P2 K) ∈ c.2

/-! ## The upper side -/

/-- The point is on the upper side of the face, up to ten tolerances. -/
def Params.onTop (P : Params K) (p : P2 K) : Bool := decide (|p.y - P.up.get P.d2| < 10 * P.tol)

/-- Where an edge that has exactly one end on the upper side meets it, and whether the solid begins (`true`) or ends (`false`)
there, from left to right: it begins if the normal points to the left. -/
def Params.crossingOf (P : Params K) (e : P2 K × P2 K) (n : P2 K) : Option (K × Bool) :=
  if P.onTop e.1 && !P.onTop e.2 then some (e.1.x, decide (n.x < 0))
  else if !P.onTop e.1 && P.onTop e.2 then some (e.2.x, decide (n.x < 0))
  else none

/-- The same for a given edge. -/
def Params.crossing (P : Params K) (e : Given K) : Option (K × Bool) := P.crossingOf (P.ends e.1 e.2.1) (P.proj e.2.2)

/-- The places where edges of one orientation meet the upper side. -/
def Params.crossings (P : Params K) (o : Orient) (es : List (Given K)) : List (K × Bool) := (P.ofOrient o es).filterMap P.crossing

/-- The two upper corners of the face. -/
def Params.topLeft (P : Params K) : P2 K := ⟨P.lo.get P.d1, P.up.get P.d2⟩
/-- See `topLeft`. -/
def Params.topRight (P : Params K) : P2 K := ⟨P.up.get P.d1, P.up.get P.d2⟩

/-- Edges in general position: the ends are separated, also from the upper corners, and within the face, and ends near
the upper side are on it; the normals are
perpendicular to the edges; the edges that count as vertical are vertical; and two edges of the same orientation do not meet
the upper side at the same place or run between the same places. -/
structure Params.General (P : Params K) (es : List (Given K)) : Prop where
  separated : Separated P.tol (P.topLeft :: P.topRight :: P.points es)
  within : ∀ p ∈ P.points es, P.lo.get P.d1 ≤ p.x ∧ p.x ≤ P.up.get P.d1 ∧ p.y ≤ P.up.get P.d2
  top : ∀ p ∈ P.points es, P.onTop p = true → p.y = P.up.get P.d2
  normal : ∀ e ∈ es, (P.proj e.2.2).x * ((P.ends e.1 e.2.1).2.x - (P.ends e.1 e.2.1).1.x) +
    (P.proj e.2.2).y * ((P.ends e.1 e.2.1).2.y - (P.ends e.1 e.2.1).1.y) = 0
  vertical : ∀ e ∈ P.ofOrient .vertical es, (P.ends e.1 e.2.1).1.x = (P.ends e.1 e.2.1).2.x ∧ P.zt ≤ |(P.proj e.2.2).x|
  distinct : ∀ o, ((P.ofOrient o es).filter fun e => (P.crossing e).isSome).Pairwise fun e f =>
    (P.crossing e).map Prod.fst ≠ (P.crossing f).map Prod.fst ∧ ((P.ends e.1 e.2.1).1.x ≠ (P.ends f.1 f.2.1).1.x ∨
      (P.ends e.1 e.2.1).2.x ≠ (P.ends f.1 f.2.1).2.x)

/-- The sort of the edges that meet the upper side sorts them by the place where they do, if these places are different. -/
def Params.SortsTop (P : Params K) : Prop := ∀ (vs : List (P2 K)) (es : List (Edge K)),
  (es.Pairwise fun a b => (vs.getD (if a.on1 then a.v1 else a.v2) ⟨0, 0⟩).x ≠ (vs.getD (if b.on1 then b.v1 else b.v2) ⟨0, 0⟩).x) →
  (P.sortE vs es).Pairwise fun a b => (vs.getD (if a.on1 then a.v1 else a.v2) ⟨0, 0⟩).x ≤ (vs.getD (if b.on1 then b.v1 else b.v2) ⟨0, 0⟩).x

/-- The parts of the upper side between a place where the solid begins and the next place, if it ends there. -/
def Params.covered (P : Params K) : List (K × Bool) → List (P2 K × P2 K)
  | a :: b :: rest =>
    (if a.2 && !b.2 then [(⟨a.1, P.up.get P.d2⟩, ⟨b.1, P.up.get P.d2⟩)] else []) ++ P.covered (b :: rest)
  | _ => []

/-- One of the places has the same first component. -/
def elsewhere (l : List (K × Bool)) (v : K × Bool) : Bool := l.any fun w => decide (w.1 = v.1)

/-- The elements of three lists whose place occurs in no other list. -/
def single (A B C : List (K × Bool)) : List (K × Bool) :=
  (A.filter fun v => !elsewhere B v && !elsewhere C v) ++ ((B.filter fun v => !elsewhere A v && !elsewhere C v) ++
    C.filter fun v => !elsewhere A v && !elsewhere B v)

/-- The point is an end of an edge of the contour. -/
def Params.isEnd (P : Params K) (es : List (Given K)) (p : P2 K) : Bool :=
  [Orient.positive, .negative, .vertical].any fun o => decide (p ∈ P.points (P.ofOrient o es))

/-- The places on the upper side, from left to right: where edges of one orientation only meet it, and the corners of the face
that are no ends of edges; there the solid may begin at the left and end at the right. -/
def Params.Places (P : Params K) (es : List (Given K)) (mid vs : List (K × Bool)) : Prop :=
  mid.Perm (single (P.crossings .positive es) (P.crossings .negative es) (P.crossings .vertical es)) ∧
  vs.Pairwise (fun a b => a.1 < b.1) ∧
  vs = (if P.isEnd es P.topLeft then [] else [(P.lo.get P.d1, true)]) ++ mid ++
    (if P.isEnd es P.topRight || (P.isEnd es P.topLeft && mid.isEmpty) then [] else [(P.up.get P.d1, false)])

/-- The height of the highest end of the edges that face up or down, or of the lower side if there are none above it. -/
def Params.Highest (P : Params K) (es : List (Given K)) (y : K) : Prop :=
  P.lo.get P.d2 ≤ y ∧ (∀ p, p ∈ P.points (P.ofOrient .positive es) ∨ p ∈ P.points (P.ofOrient .negative es) → p.y ≤ y) ∧
  (y = P.lo.get P.d2 ∨ ∃ p, (p ∈ P.points (P.ofOrient .positive es) ∨ p ∈ P.points (P.ofOrient .negative es)) ∧ y = p.y)

/-- The edges that close the contour on the upper side.  If something meets the upper side, they are its parts between a begin and
an end.  If nothing does, the whole side is closed if the point in the middle between the highest end and the upper side is inside
the solid. -/
def Params.TopEdges (P : Params K) (es : List (Given K)) (mid vs : List (K × Bool)) (tops : List (P2 K × P2 K)) : Prop :=
  (¬ (P.isEnd es P.topLeft = false ∧ P.isEnd es P.topRight = false ∧ mid = []) → tops = P.covered vs) ∧
  (P.isEnd es P.topLeft = false ∧ P.isEnd es P.topRight = false ∧ mid = [] → ∃ y, P.Highest es y ∧
    tops = if P.inside (P.lift ⟨(P.lo.get P.d1 + P.up.get P.d1) / 2, (P.up.get P.d2 + y) / 2⟩) then P.covered vs else [])

end QuESo.Plane
