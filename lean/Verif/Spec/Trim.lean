import Verif.Model.BRep
import Verif.Spec.Ray

/-!
# Specification vocabulary for clipped surfaces and trimmed domains
-/
namespace QuESo.Spec
open QuESo.BRep
variable {K : Type} [Field K] [LinearOrder K] {D : Type}

/-- The triangle lies in the triangle `s` and, up to the tolerance, in the box, and has its normal. -/
def CutFrom (zt : K) (lo up : V3 K) (s t : Tri K) : Prop :=
  t.normal = s.normal ∧
  (InTriangle s.p1 s.p2 s.p3 t.p1 ∧ InTriangle s.p1 s.p2 s.p3 t.p2 ∧ InTriangle s.p1 s.p2 s.p3 t.p3) ∧
  InBoxTol lo up (10 * zt) t.p1 ∧ InBoxTol lo up (10 * zt) t.p2 ∧ InBoxTol lo up (10 * zt) t.p3

/-- What is required of the pieces into which clipping by a box cuts the triangle `s`: they lie in it and in the box, have its
normal and its orientation, do not overlap, and contain all of its points that are inside the box by more than `depth`. -/
structure IsCut (zt depth : K) (lo up : V3 K) (s : Tri K) (ts : List (Tri K)) : Prop where
  part : ∀ t ∈ ts, CutFrom zt lo up s t
  oriented : ∀ t ∈ ts, ∃ k, 0 ≤ k ∧ triangleArea2 t.p1 t.p2 t.p3 =
    ⟨k * (triangleArea2 s.p1 s.p2 s.p3).x, k * (triangleArea2 s.p1 s.p2 s.p3).y, k * (triangleArea2 s.p1 s.p2 s.p3).z⟩
  disjoint : ts.Pairwise fun t t' => ¬ ∃ q, Inside t.p1 t.p2 t.p3 q ∧ Inside t'.p1 t'.p2 t'.p3 q
  covered : ∀ q, InTriangle s.p1 s.p2 s.p3 q → DeepInBox lo up depth q → ∃ t ∈ ts, InTriangle t.p1 t.p2 t.p3 q

/-- What clipping the mesh `m` by the box is required to give: the pieces of each of its triangles, once. -/
def IsClipped (zt depth : K) (m : Mesh K) (lo up : V3 K) (ts : List (Tri K)) : Prop :=
  ∃ pieces : Nat → List (Tri K), ts.Perm ((List.range m.triangles.length).flatMap pieces) ∧
    ∀ i s, m.triangle i = some s → IsCut zt depth lo up s (pieces i)

/-- One attempt: the box, the orientation of the planes and what was found: the volume, the error estimate and the domain. -/
structure Attempt (K D : Type) where
  lower : V3 K
  upper : V3 K
  switch : Bool
  found : Option (Trial K D)

/-- The box contains the given box and exceeds it by at most `d` on each side. -/
def Grown (lo up lower upper : V3 K) (d : K) : Prop :=
  ((lo.x - d ≤ lower.x ∧ lower.x ≤ lo.x) ∧ (lo.y - d ≤ lower.y ∧ lower.y ≤ lo.y) ∧ lo.z - d ≤ lower.z ∧ lower.z ≤ lo.z) ∧
  ((up.x ≤ upper.x ∧ upper.x ≤ up.x + d) ∧ (up.y ≤ upper.y ∧ upper.y ≤ up.y + d) ∧ up.z ≤ upper.z ∧ upper.z ≤ up.z + d)

/-- The best of the attempts. -/
def IsBest (volume minRatio : K) (tr : List (Attempt K D)) (t : Trial K D) : Prop :=
  (∃ a ∈ tr, a.found = some t) ∧ t.volume / volume > minRatio ∧ t.epsilon < 1 / 2 ∧
    ∀ a ∈ tr, ∀ t', a.found = some t' → t'.volume / volume > minRatio → t.epsilon ≤ t'.epsilon

/-- All random numbers are between 0 and 100. -/
def Rand (r : V3 K) : Prop := (0 ≤ r.x ∧ r.x ≤ 100) ∧ (0 ≤ r.y ∧ r.y ≤ 100) ∧ 0 ≤ r.z ∧ r.z ≤ 100

/-- What the loop returns, in terms of the attempts. -/
def Outcome (volume minRatio : K) (neglect : Bool) (tr : List (Attempt K D)) (res : Option D) : Prop :=
  (∃ init a t, tr = init ++ [a] ∧ a.found = some t ∧ t.epsilon < 1 / 100000 ∧
    (∀ b ∈ init, ∀ t', b.found = some t' → ¬ t'.epsilon < 1 / 100000) ∧
    res = if t.volume / volume > minRatio then some t.domain else none) ∨
  (tr.length = 28 ∧ (∀ a ∈ tr, ∀ t, a.found = some t → ¬ t.epsilon < 1 / 100000) ∧
    ((res = none ∧ ∀ a ∈ tr, ∀ t, a.found = some t → t.volume / volume > minRatio → 1 / 2 ≤ t.epsilon ∨ neglect = true ∧ 1 / 100 < t.epsilon) ∨
      ∃ t, IsBest volume minRatio tr t ∧ res = some t.domain ∧ (neglect = true → t.epsilon ≤ 1 / 100)))

end QuESo.Spec
