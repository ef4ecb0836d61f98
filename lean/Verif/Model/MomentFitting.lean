import Verif.Model.Octree
import Verif.Model.Polynomial

/-!
# The integration rule of a trimmed element

Models `queso/quadrature/trimmed_element.hpp` and the interface of `queso/solvers/nnls.cpp`.  Three things
are parameters: the solver of the non-negative least-squares problem (`nnls`), the square root inside the
Euclidean norm (`norm`) and `std::sort` (`sort`; it is not stable, so any sorted permutation can come out).
The constants `ZEROTOL` and `MIND` are the parameters `zt` and `mind`.
-/
namespace QuESo.Trimmed
open Mapping
variable {K : Type _} [Field K] [LinearOrder K]

/-- What can go wrong: undefined behaviour, or a loop of the model that runs out of fuel. -/
inductive Fault | ub | diverges
  deriving DecidableEq

/-- `number_of_functions`, trimmed_element.hpp L197-198, L246-247, L335-336, L398-399 (`ffactor` is 1). -/
def numFun (o : V3 Nat) : Nat := (o.x + 1) * (o.y + 1) * (o.z + 1)

/-- The exponents in the order of the triple loops, trimmed_element.hpp L209-218, L290-305, L349-362:
`i_z` runs fastest. -/
def orders (o : V3 Nat) : List (V3 Nat) :=
  (List.range (o.x + 1)).flatMap fun i => (List.range (o.y + 1)).flatMap fun j =>
    (List.range (o.z + 1)).map fun k => ⟨i, j, k⟩

/-- The product of the three polynomials, trimmed_element.hpp L213-215 and L353-355. -/
def shape (c : Box K) (i : V3 Nat) (p : V3 K) : K :=
  Poly.fx p.x i.x c.lower.x c.upper.x * Poly.fx p.y i.y c.lower.y c.upper.y *
    Poly.fx p.z i.z c.lower.z c.upper.z

/-- `ComputeConstantTerms` from volume points, trimmed_element.hpp L179-219: for every point one term is
added to every row. -/
def constantTermsVolume (cell : Box K) (o : V3 Nat) (pts : List (VolPoint K)) : List K :=
  pts.foldl (fun acc q => List.zipWith (· + ·) acc ((orders o).map fun i => shape cell i q.pos * q.weight))
    (List.replicate (numFun o) 0)

/-- The value added to one row for one boundary point, trimmed_element.hpp L289-303. -/
def flux (c : Box K) (i : V3 Nat) (q : BndPoint K) : K :=
  let w := 1 / 3 * q.weight
  let vx := Poly.fxInt q.pos.x i.x c.lower.x c.upper.x * Poly.fx q.pos.y i.y c.lower.y c.upper.y *
    Poly.fx q.pos.z i.z c.lower.z c.upper.z
  let vy := Poly.fx q.pos.x i.x c.lower.x c.upper.x * Poly.fxInt q.pos.y i.y c.lower.y c.upper.y *
    Poly.fx q.pos.z i.z c.lower.z c.upper.z
  let vz := Poly.fx q.pos.x i.x c.lower.x c.upper.x * Poly.fx q.pos.y i.y c.lower.y c.upper.y *
    Poly.fxInt q.pos.z i.z c.lower.z c.upper.z
  (q.normal.x * vx + q.normal.y * vy + q.normal.z * vz) * w

/-- `ComputeConstantTerms` from boundary points, trimmed_element.hpp L228-308.  Simplification: the values
of the polynomials are not stored in arrays first. -/
def constantTerms (cell : Box K) (o : V3 Nat) (pts : List (BndPoint K)) : List K :=
  pts.foldl (fun acc q => List.zipWith (· + ·) acc ((orders o).map fun i => flux cell i q))
    (List.replicate (numFun o) 0)

/-- `MomentFitting`, trimmed_element.hpp L318-377.  `nnls A b` gives the weights and the norm of the residual
(`NNLS::solve`, solvers/nnls.cpp L25-64); the matrix is a list of columns, one for each point
(simplification: in the code one array, column after column). -/
def momentFitting (nnls : List (List K) → List K → List K × K) (norm : List K → K) (cell : Bounds K)
    (o : V3 Nat) (ct : List K) (pts : List (VolPoint K)) : List (VolPoint K) × K :=
  let A := pts.map fun q => (orders o).map fun i => shape cell.parametric i q.pos
  let r := nnls A ct
  (List.zipWith (fun (q : VolPoint K) w => ⟨q.pos, w / detJ cell⟩) pts r.1, r.2 / norm ct)

/-- The local variables of `PointElimination`, trimmed_element.hpp L402-409: the points, `global_residual`,
`prev_solution`, `prev_residual`, `number_iterations` and `point_is_eliminated`. -/
structure Elim (K : Type _) where
  pts : List (VolPoint K)
  global : K
  prev : List (VolPoint K)
  prevRes : K
  n : Nat
  elim : Bool

/-- `min_value_it`, trimmed_element.hpp L447-459: the index of the first point with the smallest weight
(`none` for no points).  Simplification: `MAXD` is larger than all weights. -/
def minIdx : List (VolPoint K) → Option Nat
  | [] => none
  | q :: l =>
    match minIdx l with
    | none => some 0
    | some i =>
      match l[i]? with
      | some r => if r.weight < q.weight then some (i + 1) else some 0
      | none => some 0

/-- `max_value`, trimmed_element.hpp L449-459.  Simplification: for no points the value is zero instead of
`LOWESTD`; it is then not used. -/
def maxWeight : List (VolPoint K) → K
  | [] => 0
  | q :: l => l.foldl (fun m r => if r.weight > m then r.weight else m) q.weight

/-- The part of the loop body for all but the first iteration, once the target is met,
trimmed_element.hpp L441-487, with the increment of L488. -/
def eliminate (minPts : Nat) (s : Elim K) : Elim K :=
  let mx := maxWeight s.pts
  let kept := s.pts.filter fun q => ¬ q.weight < mx / 100000000
  let small := decide (kept.length ≠ s.pts.length)
  let again := !small && decide (kept.length > minPts)
  let pts := if again then (match minIdx kept with | some i => kept.eraseIdx i | none => kept) else kept
  let n := if pts.length ≤ minPts then 1010 else s.n
  { pts := pts, global := s.global, prev := s.pts, prevRes := s.global, n := n + 1,
    elim := small || again }

/-- The body of the loop, trimmed_element.hpp L414-489; the flag says whether the loop is left by `break`. -/
def elimStep (fit : List (VolPoint K) → List (VolPoint K) × K)
    (sort : List (VolPoint K) → List (VolPoint K)) (zt target : K) (nf minPts : Nat) (s : Elim K) :
    Except Fault (Elim K × Bool) :=
  let f := fit s.pts
  let s1 : Elim K := { s with pts := f.1, global := f.2, elim := false }
  if s.n = 0 then
    if f.1.length < nf then .error .ub
    else
      let pts := ((sort f.1).take nf).filter fun q => ¬ q.weight < zt
      if pts.length = 0 then .ok ({ s1 with pts := pts }, true)
      else .ok ({ s1 with pts := pts, elim := true, n := s.n + 1 }, false)
  else if s1.global < target ∧ s.n < 1000 then .ok (eliminate minPts s1, false)
  else .ok ({ s1 with n := s.n + 1 }, false)

/-- The loop, trimmed_element.hpp L413-489, with fuel. -/
def elimLoop (fit : List (VolPoint K) → List (VolPoint K) × K)
    (sort : List (VolPoint K) → List (VolPoint K)) (zt target : K) (nf minPts : Nat) :
    Nat → Elim K → Except Fault (Elim K)
  | 0, _ => .error .diverges
  | fuel + 1, s =>
    if s.elim = true ∨ (s.global < target ∧ s.n < 1000) then
      match elimStep fit sort zt target nf minPts s with
      | .error e => .error e
      | .ok (s', true) => .ok s'
      | .ok (s', false) => elimLoop fit sort zt target nf minPts fuel s'
    else .ok s

/-- What `PointElimination` leaves behind: the returned residual, the points of the element and the points in
the vector that was passed in. -/
structure Rule (K : Type _) where
  residual : K
  points : List (VolPoint K)
  rest : List (VolPoint K)

/-- The end of `PointElimination`, trimmed_element.hpp L491-522.  `old` are the points that the element has
already (`GetIntegrationPoints`); the new ones are inserted before them and all small ones are removed. -/
def finish (zt target : K) (old : List (VolPoint K)) (s : Elim K) : Rule K :=
  if (s.global ≥ target ∧ s.prev.length > 0) ∨ s.n > 1000 then
    ⟨s.prevRes, (s.prev ++ old).filter (fun q => ¬ q.weight < zt), s.pts⟩
  else ⟨s.global, (s.pts ++ old).filter (fun q => ¬ q.weight < zt), s.pts⟩

/-- `PointElimination`, trimmed_element.hpp L386-523. -/
def pointElimination (fit : List (VolPoint K) → List (VolPoint K) × K)
    (sort : List (VolPoint K) → List (VolPoint K)) (zt mind target : K) (o : V3 Nat)
    (old pts : List (VolPoint K)) : Except Fault (Rule K) :=
  match elimLoop fit sort zt target (numFun o) (o.x * o.y * o.z) 1003 ⟨pts, mind, [], 0, 0, false⟩ with
  | .error e => .error e
  | .ok s => .ok (finish zt target old s)

/-- What an element offers to the quadrature: bounds of its cell, bounds of its active domain, the
classification of boxes and points and the one-dimensional Gauss rules
(`queso/containers/element_base.hpp` L139-175). -/
structure Elem (K : Type _) where
  cell : Bounds K
  active : Bounds K
  state : Box K → IState
  inside : V3 K → Bool
  rule : V3 (List (K × K))

/-- The loop of `DistributeIntegrationPoints`, trimmed_element.hpp L165-171; the first argument is the number
of iterations that are left. -/
def distributeLoop (e : Elem K) (minNum : Nat) :
    Nat → Nat → Octree.Tree K → List (VolPoint K) → Octree.Tree K × List (VolPoint K)
  | 0, _, t, pts => (t, pts)
  | left + 1, level, t, pts =>
    if pts.length < minNum then
      match Octree.refine e.state t (min level 4) level with
      | some t' => distributeLoop e minNum left (level + 1) t' (t'.root.points e.inside e.rule)
      | none => (t, pts)
    else (t, pts)

/-- `DistributeIntegrationPoints`, trimmed_element.hpp L155-172. -/
def distribute (e : Elem K) (minNum : Nat) (t : Octree.Tree K) (pts : List (VolPoint K)) :
    Octree.Tree K × List (VolPoint K) :=
  distributeLoop e minNum 5 (t.maxLevel + 1) t pts

/-- `AssembleFictitiousIPs`, trimmed_element.hpp L529-565: the points that are appended. -/
def fictitious (e : Elem K) (alpha : K) : List (VolPoint K) :=
  let lo := e.cell.parametric.lower
  let up := e.cell.parametric.upper
  let lu := up.x - lo.x
  let lv := up.y - lo.y
  let lw := up.z - lo.z
  let scaled := lu * lv * lw * alpha
  e.rule.x.flatMap fun u => e.rule.y.flatMap fun v => e.rule.z.flatMap fun w =>
    let p : V3 K := ⟨lo.x + lu * u.1, lo.y + lv * v.1, lo.z + lw * w.1⟩
    if ¬ e.inside (toGlobal p e.cell) then [⟨p, u.2 * v.2 * w.2 * scaled⟩] else []

/-- The variables of the loop of `AssembleIPs`, trimmed_element.hpp L89-92 and the octree (L86): `residual`,
`point_distribution_factor`, `integration_points`, the points of the element. -/
structure Assembly (K : Type _) where
  residual : K
  factor : Nat
  pts : List (VolPoint K)
  points : List (VolPoint K)
  tree : Octree.Tree K

/-- The loop of `AssembleIPs`, trimmed_element.hpp L96-129; the first argument is the number of iterations
that are left.  The flag is true if the function returned inside the loop. -/
def assembleLoop (fit : List (VolPoint K) → List (VolPoint K) × K)
    (sort : List (VolPoint K) → List (VolPoint K)) (zt mind target : K) (o : V3 Nat) (e : Elem K) :
    Nat → Assembly K → Except Fault (Assembly K × Bool)
  | 0, a => .ok (a, false)
  | left + 1, a =>
    if a.residual > target then
      let d := distribute e (numFun o * a.factor) a.tree a.pts
      if d.2.length = 0 then .ok ({ a with residual := 1, points := [] }, true)
      else
        match pointElimination fit sort zt mind target o [] (d.2 ++ a.points) with
        | .error f => .error f
        | .ok r =>
          let points := if r.residual > 1 / 100 then [] else r.points
          assembleLoop fit sort zt mind target o e left ⟨r.residual, a.factor * 2, r.rest, points, d.1⟩
    else .ok (a, false)

/-- `Math::Max` of three numbers. -/
def max3 (o : V3 Nat) : Nat := max o.x (max o.y o.z)

/-- `AssembleIPs`, trimmed_element.hpp L66-139, on an element without points; `maxd` is `MAXD`.  The result
is the returned residual and the points of the element. -/
def assemble (fit : List (VolPoint K) → List (VolPoint K) × K)
    (sort : List (VolPoint K) → List (VolPoint K)) (zt mind maxd target : K) (o : V3 Nat) (e : Elem K)
    (alpha : Option K) : Except Fault (K × List (VolPoint K)) :=
  let tree := Octree.new e.active.global e.active.parametric
  let tries := if max3 o = 2 then 4 else 3
  match assembleLoop fit sort zt mind target o e tries ⟨maxd, 1, [], [], tree⟩ with
  | .error f => .error f
  | .ok (a, true) => .ok (a.residual, a.points)
  | .ok (a, false) =>
    match alpha with
    | some al => .ok (a.residual, a.points ++ fictitious e al)
    | none => .ok (a.residual, a.points)

/-- `AssembleIPs` as a whole, trimmed_element.hpp L66-139: constant terms from the boundary points of the
active domain in physical space, moment fitting with the solver `nnls`. -/
def assembleIPs (nnls : List (List K) → List K → List K × K) (norm : List K → K)
    (sort : List (VolPoint K) → List (VolPoint K)) (zt mind maxd target : K) (o : V3 Nat) (e : Elem K)
    (boundary : List (BndPoint K)) (alpha : Option K) : Except Fault (K × List (VolPoint K)) :=
  assemble (momentFitting nnls norm e.cell o (constantTerms e.cell.global o boundary))
    sort zt mind maxd target o e alpha

end QuESo.Trimmed
