import Verif.Spec.PlaneContour

/-!
# The section of a solid with a face of a cell
-/
namespace QuESo.Plane
variable {K : Type} [Field K] [LinearOrder K]

/-- The position is between the ends of the edge. -/
def covers (e : P2 K × P2 K) (x : K) : Prop := e.1.x ≤ x ∧ x ≤ e.2.x

/-- The position is strictly between the ends of the edge. -/
def inner (e : P2 K × P2 K) (x : K) : Prop := e.1.x < x ∧ x < e.2.x

/-- The positions of the ends of edges. -/
def abscissas (es : List (P2 K × P2 K)) : List K := es.flatMap fun e => [e.1.x, e.2.x]

/-- The edges `U`, which face up, and `N`, which face down, bound a region of the plane above the lower side of the face.  Edges run
from left to right, and meet at most in common ends: they are not close to each other or to ends of others.  From top to bottom
over each position that is not the one of an end, edges alternate, and the topmost one faces up. -/
structure Params.Section (P : Params K) (U N : List (P2 K × P2 K)) : Prop where
  nodup : (U ++ N).Nodup
  right : ∀ e ∈ U ++ N, e.1.x < e.2.x
  low : ∀ e ∈ U, P.lo.get P.d2 ≤ e.1.y ∧ P.lo.get P.d2 ≤ e.2.y
  apart : ∀ x ∈ abscissas (U ++ N), ∀ y ∈ abscissas (U ++ N), x = y ∨ 10 * P.tol < |x - y|
  order : ∀ e ∈ U ++ N, ∀ f ∈ U ++ N, e ≠ f → ∀ x y, covers e x → covers f x → covers e y → covers f y →
    heightOver e x < heightOver f x → heightOver e y ≤ heightOver f y
  differ : ∀ e ∈ U ++ N, ∀ f ∈ U ++ N, e ≠ f → ∀ x, x ∉ abscissas (U ++ N) → covers e x → covers f x → heightOver e x ≠ heightOver f x
  clear : ∀ e ∈ U ++ N, ∀ f ∈ U ++ N, e ≠ f → ∀ x ∈ abscissas (U ++ N), inner e x → covers f x →
    P.tol + P.zt < |heightOver e x - heightOver f x|
  ends : ∀ e ∈ U, ∀ f ∈ N, ∀ x ∈ abscissas (U ++ N), covers e x → covers f x →
    heightOver e x = heightOver f x ∨ P.tol ≤ |heightOver e x - heightOver f x|
  limit : ∀ e ∈ U, ∀ f ∈ N, ∀ x, covers e x → covers f x →
    |heightOver e x - heightOver f x| + P.zt < 10 ^ 15 ∧ |heightOver e x - heightOver f x| < P.maxd
  above : ∀ f ∈ N, ∀ x, x ∉ abscissas (U ++ N) → covers f x → ∃ e ∈ U, covers e x ∧ heightOver f x < heightOver e x
  betweenUp : ∀ e ∈ U, ∀ g ∈ U, ∀ x, x ∉ abscissas (U ++ N) → covers e x → covers g x → heightOver g x < heightOver e x →
    ∃ f ∈ N, covers f x ∧ heightOver g x < heightOver f x ∧ heightOver f x < heightOver e x
  betweenDown : ∀ e ∈ N, ∀ g ∈ N, ∀ x, x ∉ abscissas (U ++ N) → covers e x → covers g x → heightOver g x < heightOver e x →
    ∃ f ∈ U, covers f x ∧ heightOver g x < heightOver f x ∧ heightOver f x < heightOver e x

/-- An edge with this normal is far enough from the edges below it to tell them from edges on it. -/
def Params.Steep (P : Params K) (U N : List (P2 K × P2 K)) (n : P2 K) : Prop :=
  0 < n.y ∧ ∀ e ∈ U, ∀ f ∈ N, ∀ x ∈ abscissas (U ++ N), ∀ y ∈ abscissas (U ++ N), x < y → covers e x → covers e y → covers f x → covers f y →
    P.zt < |heightOver e ((x + y) / 2) - heightOver f ((x + y) / 2)| * n.y

/-- The area between edges and the lower side of the face. -/
def Params.areaOver (P : Params K) (es : List (P2 K × P2 K)) : K :=
  (es.map fun e => under e - P.lo.get P.d2 * (e.2.x - e.1.x)).sum

/-- The sum of a quantity over the edges of the quadrilateral between an edge and a level: down at its first end, along the level, up to its
second end and back along the edge. -/
def wall (Q : P2 K → P2 K → K) (lo : K) (e : P2 K × P2 K) : K :=
  Q e.1 ⟨e.1.x, lo⟩ + Q ⟨e.1.x, lo⟩ ⟨e.2.x, lo⟩ + Q ⟨e.2.x, lo⟩ e.2 + Q e.2 e.1

end QuESo.Plane
