import Verif.Spec.Octree

/-!
# Specification vocabulary for moment-fitted rules

A solver `fit` takes points and gives the same points with new weights, and a residual.
-/
namespace QuESo.Spec
open Mapping
variable {K : Type _} [Field K] [LinearOrder K]

/-- The solver gives one weight for each point and does not move points. -/
def KeepsPositions (fit : List (VolPoint K) → List (VolPoint K) × K) : Prop :=
  ∀ P, (fit P).1.map VolPoint.pos = P.map VolPoint.pos

/-- Sorting gives the same points, heaviest first. -/
def SortsByWeight (sort : List (VolPoint K) → List (VolPoint K)) : Prop :=
  ∀ l, (sort l).Perm l ∧ (sort l).Pairwise fun a b => b.weight ≤ a.weight

/-- `S` are the (at most) `nf` heaviest of the points `all`, without points of weight below `zt`. -/
def Heaviest (nf : Nat) (zt : K) (all S : List (VolPoint K)) : Prop :=
  ∃ rest, (S ++ rest).Perm all ∧ S.length ≤ nf ∧ (∀ a ∈ S, zt ≤ a.weight) ∧
    ∀ b ∈ rest, b.weight < zt ∨ (S.length = nf ∧ ∀ a ∈ S, b.weight ≤ a.weight)

/-- The points of `W` whose weight is at least `10⁻⁸` times the largest one. -/
def NotSmall (W S : List (VolPoint K)) : Prop :=
  ∃ m ∈ W, (∀ q ∈ W, q.weight ≤ m.weight) ∧ S = W.filter fun q => m.weight ≤ 100000000 * q.weight

/-- One elimination: remove the points whose weight is less than `10⁻⁸` times the largest one; if there are
none, remove one point of smallest weight, unless no more than `least` points are left. -/
def Thinned (least : Nat) (W S : List (VolPoint K)) : Prop :=
  (NotSmall W S ∧ S ≠ W) ∨
  (NotSmall W W ∧ least < W.length ∧
    ∃ l q r, W = l ++ q :: r ∧ S = l ++ r ∧ ∀ x ∈ W, q.weight ≤ x.weight) ∨
  (NotSmall W W ∧ W.length ≤ least ∧ S = W)

/-- `Chain fit target least S₁ k S`: starting from `S₁`, `k - 1` eliminations lead to `S`, and all `k` sets on
the way are fitted with a residual below the target. -/
inductive Chain (fit : List (VolPoint K) → List (VolPoint K) × K) (target : K) (least : Nat) :
    List (VolPoint K) → Nat → List (VolPoint K) → Prop
  | one {S} (h : (fit S).2 < target) : Chain fit target least S 1 S
  | next {S₁ k S S'} (h : Chain fit target least S₁ k S) (ht : Thinned least (fit S).1 S')
      (hl : least < S'.length) (hf : (fit S').2 < target) : Chain fit target least S₁ (k + 1) S'

/-- The rule `(res, out)` is the one that the solver computed for the points `S`, without the points of weight
below `zt`. -/
def IsFitOf (fit : List (VolPoint K) → List (VolPoint K) × K) (zt : K) (S : List (VolPoint K)) (res : K)
    (out : List (VolPoint K)) : Prop :=
  res = (fit S).2 ∧ out = (fit S).1.filter fun q => zt ≤ q.weight

/-- `S` consists of some of the points at the positions of `P`, each used at most as often as it occurs. -/
def PositionsFrom (P S : List (VolPoint K)) : Prop :=
  (S.map VolPoint.pos).Subperm (P.map VolPoint.pos)

/-- What the elimination makes of the candidates `cand` with `nf` functions to be fitted and at least `least`
points to be kept.  `S₁` are the heaviest candidates; no rule is returned if there are none; the fit of `S₁` is
returned if it misses the target; else points are eliminated as long as the target is met, and the fit of the
last set that met it is returned (but at most 999 eliminations, and never down to `least` points). -/
def Eliminated (fit : List (VolPoint K) → List (VolPoint K) × K) (zt target : K) (nf least : Nat)
    (cand : List (VolPoint K)) (res : K) (out : List (VolPoint K)) : Prop :=
  ∃ S₁, Heaviest nf zt (fit cand).1 S₁ ∧
    ((S₁ = [] ∧ res = (fit cand).2 ∧ out = []) ∨
     (S₁ ≠ [] ∧ target ≤ (fit S₁).2 ∧ IsFitOf fit zt S₁ res out) ∨
     (S₁ ≠ [] ∧ ∃ k S S', Chain fit target least S₁ k S ∧ k ≤ 999 ∧ Thinned least (fit S).1 S' ∧
        (S'.length ≤ least ∨ target ≤ (fit S').2 ∨ k = 999) ∧ IsFitOf fit zt S res out))

/-- The number of polynomials of degree at most `o` in each direction. -/
def numMoments (o : V3 Nat) : Nat := (o.x + 1) * (o.y + 1) * (o.z + 1)

/-- One attempt to find a rule: the number of refinements up to then, the candidates, the residual and the points. -/
structure Try (K : Type _) where
  level : Nat
  cand : List (VolPoint K)
  res : K
  out : List (VolPoint K)

/-- The first `n` calls of `Refine`: call number `k` refines up to level `k` where the surface is, and everywhere up
to level `k` but not beyond level four. -/
def schedule (n : Nat) : List (Nat × Nat) := (List.range n).map fun k => (min (k + 1) 4, k + 1)

/-- The points of an octree over the active domain after the first `n` refinements. -/
def OctreePoints (state : Box K → IState) (inside : V3 K → Bool) (rule : V3 (List (K × K))) (xyz uvw : Box K)
    (n : Nat) (D : List (VolPoint K)) : Prop :=
  ∃ t, Octree.refines state (Octree.new xyz uvw) (schedule n) = some t ∧ D = t.root.points inside rule

/-- The attempt with number `i` (from zero) after `n` refinements and an attempt with the points `prev`.  `D n pts`
says that `pts` are the points that are distributed after `n` refinements.  The octree is refined once more, and on
until there are at least `2ⁱ` times as many points as there are moments, but not more than five times.  The candidates
are these points and the previous points.  A rule with a residual above 0.01 is discarded. -/
def IsTry (D : Nat → List (VolPoint K) → Prop)
    (fit : List (VolPoint K) → List (VolPoint K) × K) (zt target : K) (o : V3 Nat) (i n : Nat)
    (prev : List (VolPoint K)) (t : Try K) : Prop :=
  n < t.level ∧ t.level ≤ n + 5 ∧
  (∃ pts, D t.level pts ∧ pts ≠ [] ∧ (numMoments o * 2 ^ i ≤ pts.length ∨ t.level = n + 5) ∧
    t.cand = pts ++ prev) ∧
  (∀ k pts, n < k → k < t.level → D k pts → pts.length < numMoments o * 2 ^ i) ∧
  ∃ out, Eliminated fit zt target (numMoments o) (o.x * o.y * o.z) t.cand t.res out ∧
    t.out = if 1 / 100 < t.res then [] else out

/-- A series of attempts, each but the last one missing the target. -/
def AreTries (D : Nat → List (VolPoint K) → Prop)
    (fit : List (VolPoint K) → List (VolPoint K) × K) (zt target : K) (o : V3 Nat) :
    Nat → Nat → List (VolPoint K) → List (Try K) → Prop
  | _, _, _, [] => True
  | i, n, prev, t :: h => IsTry D fit zt target o i n prev t ∧ (h ≠ [] → target < t.res) ∧
      AreTries D fit zt target o (i + 1) t.level t.out h

/-- The number of refinements after a series of attempts that began after `n` of them. -/
def levelAfter (n : Nat) (h : List (Try K)) : Nat := (h.getLast?.map Try.level).getD n

/-- The points after a series of attempts that began with the points `prev`. -/
def pointsAfter (prev : List (VolPoint K)) (h : List (Try K)) : List (VolPoint K) :=
  (h.getLast?.map Try.out).getD prev

end QuESo.Spec
