import Verif.Spec.Grid
import Verif.Model.FloodFill
import Mathlib.Logic.Relation

/-!
# Specification vocabulary for the flood fill

Only the data type `Geo` (the answers of the geometry) of the model is used.
-/
namespace QuESo.Spec
open QuESo.Flood (Geo)

/-- Number of the cell with the given position: x runs fastest, then y, then z. -/
def cellNo (n v : V3 Nat) : Nat := v.x + n.x * (v.y + n.y * v.z)

/-- `i` is the number of a cell of the grid. -/
def IsCell (n : V3 Nat) (i : Nat) : Prop := i < n.x * n.y * n.z

/-- Cell `j` is the face neighbour of cell `i` in direction `d`. -/
def FaceNeighbour (n : V3 Nat) (d : Dir) (i j : Nat) : Prop :=
  ∃ v w, InGrid n v ∧ InGrid n w ∧ Neighbour d v w ∧ i = cellNo n v ∧ j = cellNo n w

/-- `i` and `j` are untrimmed face neighbours, and the geometry reports no boundary between them from either
side. -/
def NoBoundaryBetween (G : Geo) (n : V3 Nat) (i j : Nat) : Prop :=
  G.trim i = false ∧ G.trim j = false ∧
    ∃ d e, FaceNeighbour n d i j ∧ FaceNeighbour n e j i ∧ G.trimP j d = false ∧ G.trimP i e = false

/-- For two untrimmed face neighbours the geometry gives the same answer from both sides of their face. -/
def SameFromBothSides (G : Geo) (n : V3 Nat) : Prop :=
  ∀ i j d e, FaceNeighbour n d i j → FaceNeighbour n e j i → G.trim i = false → G.trim j = false →
    G.trimP j d = G.trimP i e

/-- The neighbouring position in direction `d`, if there is one in the grid. -/
def stepIn (n : V3 Nat) (d : Dir) (v : V3 Nat) : Option (V3 Nat) :=
  match d with
  | .xf => if v.x + 1 < n.x then some ⟨v.x + 1, v.y, v.z⟩ else none
  | .xb => if 0 < v.x then some ⟨v.x - 1, v.y, v.z⟩ else none
  | .yf => if v.y + 1 < n.y then some ⟨v.x, v.y + 1, v.z⟩ else none
  | .yb => if 0 < v.y then some ⟨v.x, v.y - 1, v.z⟩ else none
  | .zf => if v.z + 1 < n.z then some ⟨v.x, v.y, v.z + 1⟩ else none
  | .zb => if 0 < v.z then some ⟨v.x, v.y, v.z - 1⟩ else none

/-- Position of the cell with number `i`. -/
def posOf (n : V3 Nat) (i : Nat) : V3 Nat := ⟨i % n.x, i / n.x % n.y, i / n.x / n.y⟩

/-- The vote of cell `i` across its face in direction `d`: counted if there is a neighbour and the geometry reports a
boundary there. -/
def faceVote (G : Geo) (n : V3 Nat) (i : Nat) (d : Dir) : Int :=
  match stepIn n d (posOf n i) with
  | none => 0
  | some w => if G.trimP (cellNo n w) d then G.side i (cellNo n w) d else 0

/-- Sum of the votes of a set of cells across all their faces. -/
def faceVotes (G : Geo) (n : V3 Nat) (cells : List Nat) : Int :=
  (cells.map (fun i => ([Dir.xf, .xb, .yf, .yb, .zf, .zb].map (faceVote G n i)).sum)).sum

/-- The cell lies in the first or last layer of the grid along a direction with the most cells. -/
def EndLayer (n : V3 Nat) (i : Nat) : Prop :=
  ∃ a < 3, (∀ b < 3, n.get b ≤ n.get a) ∧ ((posOf n i).get a = 0 ∨ (posOf n i).get a + 1 = n.get a)

/-- Any order in which the critical sections deliver the groups. -/
def IsSchedule {α : Type _} (s : List α → List α) : Prop := ∀ l, (s l).Perm l

/-- The point lies in the box after all its faces were moved inwards by `s`. -/
def InShrunkBox {K : Type _} [Field K] [LinearOrder K] (s : K) (b : Box K) (q : V3 K) : Prop :=
  (b.lower.x + s ≤ q.x ∧ q.x ≤ b.upper.x - s) ∧ (b.lower.y + s ≤ q.y ∧ q.y ≤ b.upper.y - s) ∧
    (b.lower.z + s ≤ q.z ∧ q.z ≤ b.upper.z - s)

instance {K : Type _} [Field K] [LinearOrder K] (s : K) (b : Box K) (q : V3 K) : Decidable (InShrunkBox s b q) := by
  unfold InShrunkBox; infer_instance

/-- Relative tolerance of a box: `t` times its longest edge, but at least `t`. -/
def boxTolerance {K : Type _} [Field K] [LinearOrder K] (t : K) (b : Box K) : K :=
  max (max (b.upper.x - b.lower.x) (max (b.upper.y - b.lower.y) (b.upper.z - b.lower.z)) * t) t

/-- The test reports a box as trimmed exactly when a point of the surface `S` lies in the box, up to the relative
tolerance at its faces. -/
def ExactTrimTest {K : Type _} [Field K] [LinearOrder K] (S : V3 K → Prop) (t : K) (isTrimmed : Box K → Bool) : Prop :=
  ∀ b, isTrimmed b = true ↔ ∃ q, S q ∧ InShrunkBox (boxTolerance t b) b q

end QuESo.Spec
