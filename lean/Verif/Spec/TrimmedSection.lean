import Verif.Spec.TrimmedDomain
import Verif.Spec.PlaneSection
import Verif.Model.Vector

/-!
# The closed boundary of a trimmed cell whose faces are cut in regions
-/
namespace QuESo.Plane
variable {K : Type} [Field K] [LinearOrder K]

/-- The edges on a face are in general position and bound, together with the closed parts of the upper side, a region with this area:
`U` are the edges that face up and the closed parts, `N` the edges that face down. -/
def Params.Bounds (P : Params K) (es : List (Given K)) (area : K) : Prop :=
  P.General es ∧ ∃ mid vs tops U N, P.Places es mid vs ∧ P.TopEdges es mid vs tops ∧
    U = ((P.ofOrient .positive es).map fun e => P.ends e.1 e.2.1) ++ tops ∧ N = ((P.ofOrient .negative es).map fun e => P.ends e.1 e.2.1) ∧
    P.Section U N ∧ (∀ e ∈ P.ofOrient .positive es, P.Steep U N (P.proj e.2.2)) ∧ P.Steep U N ⟨0, 1⟩ ∧ area = P.areaOver U - P.areaOver N

/-- The two lower corners of the face. -/
def Params.lowLeft (P : Params K) : P2 K := ⟨P.lo.get P.d1, P.lo.get P.d2⟩
/-- See `lowLeft`. -/
def Params.lowRight (P : Params K) : P2 K := ⟨P.up.get P.d1, P.lo.get P.d2⟩

/-- An edge of the contour is exactly in the plane of the face, it is long enough to be used, and its triangle leads from the
edge into the cell: the edge `b - a`, the normal `n` of the triangle and the direction `n × (b - a)` into the triangle. -/
structure Params.Runs (P : Params K) (e : Given K) : Prop where
  plane : e.1.get P.d3 = P.face ∧ e.2.1.get P.d3 = P.face
  used : P.orient e.1 e.2.1 e.2.2 ≠ none
  into : V3.dot (V3.cross e.2.2 (e.2.1 - e.1)) P.outward < 0

/-- Whether a point is the given one, as a number. -/
def isAt (p q : P2 K) : K := if q.x = p.x ∧ q.y = p.y then 1 else 0

/-- How often the contour, completed by the closed parts of the upper side, arrives at a point, minus how often it leaves it. -/
def Params.degree (P : Params K) (es : List (Given K)) (tops : List (P2 K × P2 K)) (p : P2 K) : K :=
  (es.map fun e => isAt p (P.proj e.2.1) - isAt p (P.proj e.1)).sum + P.turn * (tops.map fun e => isAt p e.2 - isAt p e.1).sum

/-- The edges on a face bound a region as in `Bounds`, run around it in the right direction, and avoid the corners of the face.  The closed parts of
the upper side begin and end where the contour does.  The function tells for the corners of the cell whether they belong to the solid: the
upper corners do if the closed parts reach them, the lower right one if more edges that face up than edges that face down reach the right side. -/
def Params.SealedBounds (P : Params K) (es : List (Given K)) (corner : V3 K → K) : Prop :=
  P.General es ∧ (∀ e ∈ es, P.Runs e) ∧ (∀ p ∈ P.points es, p ≠ P.lowLeft ∧ p ≠ P.lowRight ∧ p ≠ P.topLeft ∧ p ≠ P.topRight) ∧
  ∃ mid vs tops U N, P.Places es mid vs ∧ P.TopEdges es mid vs tops ∧
    U = ((P.ofOrient .positive es).map fun e => P.ends e.1 e.2.1) ++ tops ∧ N = ((P.ofOrient .negative es).map fun e => P.ends e.1 e.2.1) ∧
    P.Section U N ∧ (∀ e ∈ P.ofOrient .positive es, P.Steep U N (P.proj e.2.2)) ∧ P.Steep U N ⟨0, 1⟩ ∧
    (∀ x, P.lo.get P.d1 < x → x < P.up.get P.d1 → P.degree es tops ⟨x, P.up.get P.d2⟩ = 0) ∧
    corner (P.lift P.topLeft) = (tops.map fun e => isAt P.topLeft e.1).sum ∧ corner (P.lift P.topRight) = (tops.map fun e => isAt P.topRight e.2).sum ∧
    corner (P.lift P.lowRight) = (U.map fun e => if e.2.x = P.up.get P.d1 then (1 : K) else 0).sum -
      (N.map fun e => if e.2.x = P.up.get P.d1 then (1 : K) else 0).sum

end QuESo.Plane

namespace QuESo.Domain
open QuESo.Spec
variable {K : Type} [Field K] [LinearOrder K]

/-- The sort of the edges that meet the upper side of a face sorts them by the place where they do, if these places are different. -/
def Env.SortsTop (E : Env K) : Prop := ∀ (vs : List (Plane.P2 K)) (es : List (Plane.Edge K)),
  (es.Pairwise fun a b => (vs.getD (if a.on1 then a.v1 else a.v2) ⟨0, 0⟩).x ≠ (vs.getD (if b.on1 then b.v1 else b.v2) ⟨0, 0⟩).x) →
  (E.sortE vs es).Pairwise fun a b => (vs.getD (if a.on1 then a.v1 else a.v2) ⟨0, 0⟩).x ≤ (vs.getD (if b.on1 then b.v1 else b.v2) ⟨0, 0⟩).x

/-- How far the plane of a face is from the origin, in the outward direction. -/
def offset (lo up : V3 K) (f : Nat × Bool) : K := if f.2 then up.get f.1 else -lo.get f.1

end QuESo.Domain
