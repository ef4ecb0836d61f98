import Verif.Model.GeometryQuery

/-!
# Boundary-representation operator

Models `queso/embedding/brep_operator.h/.cpp` and the point tests of `queso/embedding/trimmed_domain.cpp` over an exact
ordered field.  The random numbers are parameters; all theorems hold for all of them.
-/
namespace QuESo.BRep
open QuESo.AABB QuESo.AABBTree QuESo.GQ
variable {K : Type} [Field K] [LinearOrder K]

/-- A ray none of whose direction components is zero (or whose zeros are positive zeros). -/
def mkRay (p d : V3 K) : Ray K := ⟨p, d, ⟨false, false, false⟩⟩

/-- The loop of `IsInside`, brep_operator.cpp L43-67.  `ask n` is the answer (inside, success) for the ray of iteration
`n`.  The first argument is the number of iterations that are left: `max_iteration - iteration`. -/
def voteLoop (ask : Nat → Except Fault (Bool × Bool)) : Nat → Nat → Nat → Int → Except Fault Bool
  | left, iteration, success, inside =>
    if success < 5 then
      match left with
      | 0 => .ok false
      | left + 1 =>
        match ask iteration with
        | .error e => .error e
        | .ok (isInside, ok) =>
          if ok then voteLoop ask left (iteration + 1) (success + 1) (if isInside then inside + 1 else inside - 1)
          else voteLoop ask left (iteration + 1) success inside
    else .ok (decide (inside > 0))

/-- `BRepOperator::IsInside`, brep_operator.cpp L32-70.  `dirs n` is the normalised random direction of iteration `n`
(L50-54) and `junk n` the content of uninitialised variables during it. -/
def isInside (zt maxd : K) (junk : Nat → Nat → V3 K) (dirs : Nat → V3 K) (g : Query K) (p : V3 K) : Except Fault Bool :=
  if g.isWithinBoundingBox p then
    voteLoop (fun n => g.isInside zt maxd (junk n) (mkRay p (dirs n))) 100 0 0 0
  else .ok false

/-- `BRepOperator::GetIntersectionState`, brep_operator.cpp L127-149. -/
def intersectionState (zt maxd : K) (junk : Nat → Nat → V3 K) (dirs : Nat → V3 K) (g : Query K) (lo up : V3 K) (tolerance : K) :
    Except Fault IState :=
  match g.doIntersect lo up tolerance with
  | .error e => .error e
  | .ok true => .ok .trimmed
  | .ok false =>
    match isInside zt maxd junk dirs g (V3.scale (1 / 2) (up + lo)) with
    | .error e => .error e
    | .ok b => .ok (if b then .inside else .outside)

/-- The visits of `ClipTriangleMesh`, brep_operator.cpp L231-236. -/
def clipLoop (zt : K) (m : Mesh K) (lo up : V3 K) : List Nat → Clip.ClippedMesh K → Except Fault (Clip.ClippedMesh K)
  | [], out => .ok out
  | i :: rest, out =>
    match m.triangle i with
    | none => .error .ub
    | some t =>
      match Clip.clipTriangle zt t.p1 t.p2 t.p3 lo up with
      | .error => .error .error
      | .null => clipLoop zt m lo up rest out
      | .poly p =>
        match Clip.addToMesh p t.normal out with
        | none => .error .error
        | some out => clipLoop zt m lo up rest out

/-- A new `ClippedTriangleMesh`, brep_operator.cpp L228. -/
def emptyClipped : Clip.ClippedMesh K := ⟨Mesh.empty, fun _ => []⟩

/-- The final check, brep_operator.cpp L237-239. -/
def finish (out : Clip.ClippedMesh K) : Except Fault (Clip.ClippedMesh K) :=
  if out.mesh.triangles.length > 0 then
    if out.mesh.check then .ok out else .error .error
  else .ok out

/-- `ClipTriangleMesh`, brep_operator.cpp L223-241.  `snaptol` is `SNAPTOL`. -/
def clipTriangleMesh (zt snaptol : K) (g : Query K) (lo up : V3 K) : Except Fault (Clip.ClippedMesh K) :=
  match g.intersectedTriangleIds lo up (1 / 10 * relativeSnapTolerance lo up snaptol) with
  | .error e => .error e
  | .ok ids =>
    match clipLoop zt g.mesh lo up ids emptyClipped with
    | .error e => .error e
    | .ok out => finish out

/-- `ClipTriangleMeshUnique`, brep_operator.cpp L244-267. -/
def clipTriangleMeshUnique (zt : K) (g : Query K) (lo up : V3 K) : Except Fault (Clip.ClippedMesh K) :=
  let lower := lo + (⟨30 * zt, 30 * zt, 30 * zt⟩ : V3 K)
  let upper := up + (⟨30 * zt, 30 * zt, 30 * zt⟩ : V3 K)
  match g.intersectedTriangleIds lower upper (1 * zt) with
  | .error e => .error e
  | .ok ids =>
    match clipLoop zt g.mesh lower upper ids emptyClipped with
    | .error e => .error e
    | .ok out => finish out

/-! ## The choice of a trimmed domain -/

/-- What is known about one candidate domain: its volume, its quality estimate and the domain. -/
structure Trial (K : Type) (D : Type) where
  volume : K
  epsilon : K
  domain : D

/-- State of the loop of `pGetTrimmedDomain`, brep_operator.cpp L166-178. -/
structure TrimState (K : Type) (D : Type) where
  lower : V3 K
  upper : V3 K
  best : Option D
  bestError : K
  switch : Bool

/-- The perturbation of the box, brep_operator.cpp L199-206: six numbers between 1 and 100 times the snap tolerance. -/
def perturb {D : Type} (snap : K) (rl ru : V3 K) (s : TrimState K D) : TrimState K D :=
  { s with lower := s.lower - ⟨rl.x * snap, rl.y * snap, rl.z * snap⟩, upper := s.upper + ⟨ru.x * snap, ru.y * snap, ru.z * snap⟩ }

/-- The end of `pGetTrimmedDomain`, brep_operator.cpp L217-220. -/
def conclude {D : Type} (neglect : Bool) (s : TrimState K D) : Option D :=
  if s.bestError > 1 / 100 ∧ neglect then none else s.best

/-- The body of one pass that found a domain, brep_operator.cpp L181-207: `inl` ends the function. -/
def examine {D : Type} (volume minRatio snap : K) (rl ru : V3 K) (t : Trial K D) (s : TrimState K D) : Option D ⊕ TrimState K D :=
  if t.epsilon < 1 / 100000 then .inl (if t.volume / volume > minRatio then some t.domain else none)
  else
    let s1 := if t.epsilon < s.bestError ∧ t.volume / volume > minRatio then { s with bestError := t.epsilon, best := some t.domain } else s
    .inr (if s.switch then perturb snap rl ru s1 else s1)

/-- The loop of `pGetTrimmedDomain`, brep_operator.cpp L177-216.  `trial` builds the domain for a box and an
orientation of the planes (`none`: the clipped mesh is empty); the random numbers of iteration `iteration` are
`rl iteration` and `ru iteration`. -/
def trimLoop {D : Type} (trial : V3 K → V3 K → Bool → Except Fault (Option (Trial K D))) (volume minRatio snap : K)
    (rl ru : Nat → V3 K) (neglect : Bool) : Nat → Nat → TrimState K D → Except Fault (Option D)
  | 0, _, _ => .error .diverges
  | fuel + 1, iteration, s =>
    if iteration < 15 then
      match trial s.lower s.upper s.switch with
      | .error e => .error e
      | .ok found =>
        match (match found with
          | none => Sum.inr s
          | some t => examine volume minRatio snap (rl iteration) (ru iteration) t s) with
        | .inl result => .ok result
        | .inr s1 =>
          if s1.switch then trimLoop trial volume minRatio snap rl ru neglect fuel (iteration + 1) { s1 with switch := false }
          else trimLoop trial volume minRatio snap rl ru neglect fuel iteration { s1 with switch := true }
    else .ok (conclude neglect s)

/-- `pGetTrimmedDomain`, brep_operator.cpp L157-220. -/
def getTrimmedDomain {D : Type} (trial : V3 K → V3 K → Bool → Except Fault (Option (Trial K D))) (snaptol : K)
    (rl ru : Nat → V3 K) (lo up : V3 K) (minRatio : K) (neglect : Bool) : Except Fault (Option D) :=
  let snap := 10 * relativeSnapTolerance lo up snaptol
  let volume := (up.x - lo.x) * (up.y - lo.y) * (up.z - lo.z)
  trimLoop trial volume minRatio snap rl ru neglect 29 1 ⟨lo, up, none, 1 / 2, false⟩

/-! ## Point tests of a clipped mesh -/

/-- `TriangleUtilities::Center`, `queso/utilities/triangle_utilities.hpp` L102-111. -/
def center (c : V3 (V3 K)) : V3 K :=
  ⟨1 / 3 * (c.x.x + c.y.x + c.z.x), 1 / 3 * (c.x.y + c.y.y + c.z.y), 1 / 3 * (c.x.z + c.y.z + c.z.z)⟩

/-- The ray from the point to the centre of a triangle, brep_operator.cpp L96-105 and trimmed_domain.cpp L51-60.
`norm` is `Math::Norm`.  Simplification: the division by a zero norm gives zero instead of not-a-number. -/
def rayTo (norm : V3 K → K) (p : V3 K) (c : V3 (V3 K)) : Ray K :=
  let d := center c - p
  mkRay p ⟨d.x / norm d, d.y / norm d, d.z / norm d⟩

/-- The target triangle is not parallel to the ray and has a significant area, brep_operator.cpp L113-114 and
trimmed_domain.cpp L64-65. -/
def usable (zt snap : K) (norm : V3 K → K) (p : V3 K) (c : V3 (V3 K)) : Bool :=
  !(rayTo norm p c).isParallel c.x c.y c.z (100 * snap) && areaGt c (100 * zt)

/-- The loop of `OnBoundedSideOfClippedSection`, brep_operator.cpp L91-124; `n` counts the triangles that are left. -/
def sideLoop (zt maxd snap : K) (norm : V3 K → K) (junk : Nat → Nat → V3 K) (g : Query K) (p : V3 K) :
    Nat → Nat → Nat → Int → Except Fault Bool
  | 0, _, _, inside => .ok (decide (inside > 0))
  | n + 1, id, success, inside =>
    if success < 10 then
      match cornersAt g.mesh id with
      | .error e => .error e
      | .ok c =>
        if usable zt snap norm p c then
          match g.isInside zt maxd (junk id) (rayTo norm p c) with
          | .error e => .error e
          | .ok (isInside, ok) =>
            if ok then sideLoop zt maxd snap norm junk g p n (id + 1) (success + 1) (if isInside then inside + 1 else inside - 1)
            else sideLoop zt maxd snap norm junk g p n (id + 1) success inside
        else sideLoop zt maxd snap norm junk g p n (id + 1) success inside
    else .ok (decide (inside > 0))

/-- `OnBoundedSideOfClippedSection`, brep_operator.cpp L77-125. -/
def onBoundedSide (zt snaptol maxd : K) (norm : V3 K → K) (node : Node K) (junk : Nat → Nat → V3 K) (g : Query K) (p lo up : V3 K) :
    Except Fault Bool :=
  match clipTriangleMesh zt snaptol g lo up with
  | .error e => .error e
  | .ok clipped =>
    match Query.new node maxd clipped.mesh false with
    | .error e => .error e
    | .ok local' =>
      let n := clipped.mesh.triangles.length
      if n = 0 then .ok false
      else sideLoop zt maxd (relativeSnapTolerance lo up snaptol) norm junk local' p n 0 0 0

/-- The loop of `TrimmedDomain::IsInsideTrimmedDomain`, trimmed_domain.cpp L43-70: the pair (inside, success). -/
def insideTrimmedLoop (zt maxd snap : K) (norm : V3 K → K) (junk : Nat → Nat → V3 K) (g : Query K) (p : V3 K) :
    Nat → Nat → Except Fault (Bool × Bool)
  | 0, _ => .ok (false, false)
  | n + 1, id =>
    match cornersAt g.mesh id with
    | .error e => .error e
    | .ok c =>
      if usable zt snap norm p c then
        match g.isInside zt maxd (junk id) (rayTo norm p c) with
        | .error e => .error e
        | .ok (isInside, ok) => if ok then .ok (isInside, true) else insideTrimmedLoop zt maxd snap norm junk g p n (id + 1)
      else insideTrimmedLoop zt maxd snap norm junk g p n (id + 1)

/-- `IsInsideTrimmedDomain`, trimmed_domain.cpp L25-72: `g` is the query object of the clipped mesh and `fallback` the
answer of the inside test of the whole geometry. -/
def isInsideTrimmedDomain (zt maxd snap : K) (norm : V3 K → K) (junk : Nat → Nat → V3 K) (g : Query K)
    (fallback : V3 K → Except Fault Bool) (p : V3 K) : Except Fault Bool :=
  if g.mesh.triangles.length = 0 then .ok true
  else
    match insideTrimmedLoop zt maxd snap norm junk g p g.mesh.triangles.length 0 with
    | .error e => .error e
    | .ok (isInside, ok) => if ok then .ok isInside else fallback p

/-- The loops of `GetBoundingBoxOfTrimmedDomain`, trimmed_domain.cpp L80-91, for one component. -/
def boundStep (b : Box K) (v : V3 K) : Box K :=
  ⟨⟨if v.x < b.lower.x then v.x else b.lower.x, if v.y < b.lower.y then v.y else b.lower.y, if v.z < b.lower.z then v.z else b.lower.z⟩,
   ⟨if v.x > b.upper.x then v.x else b.upper.x, if v.y > b.upper.y then v.y else b.upper.y, if v.z > b.upper.z then v.z else b.upper.z⟩⟩

/-- `GetBoundingBoxOfTrimmedDomain`, trimmed_domain.cpp L74-94. -/
def boundingBoxOfTrimmedDomain (maxd : K) (closedMesh : Mesh K) : Box K :=
  closedMesh.vertices.foldl boundStep ⟨⟨maxd, maxd, maxd⟩, ⟨-maxd, -maxd, -maxd⟩⟩

/-- `TrimmedDomain::GetIntersectionState`, trimmed_domain.cpp L96-110. -/
def trimmedState (inside : V3 K → Except Fault Bool) (g : Query K) (lo up : V3 K) (tolerance : K) : Except Fault IState :=
  match g.doIntersect lo up tolerance with
  | .error e => .error e
  | .ok true => .ok .trimmed
  | .ok false =>
    match inside (V3.scale (1 / 2) (lo + up)) with
    | .error e => .error e
    | .ok b => .ok (if b then .inside else .outside)

end QuESo.BRep
