import Verif.Model.Rounding
import Verif.Model.Clipper

/-!
# Model of clipping in floating-point arithmetic

`queso/embedding/clipper.cpp` with every operation rounded, see `Model/Rounding.lean`.  The polygon, the planes, the flags and the bounds of the triangle, where nothing is rounded, are those of
`Model/Clipper.lean`.
-/
namespace QuESo.Round
open QuESo.Clip

/-- The errors that clipping may throw, polygon.cpp L22-47 and clipper.cpp L206-208. -/
inductive ClipErr | capacity | noIntersection
  deriving DecidableEq

/-- `Polygon::AddVertex`, polygon.cpp L22-47. -/
def addVertexR (p : List (Vtx ℚ)) (v : Vtx ℚ) : Except ClipErr (List (Vtx ℚ)) := if p.length ≥ capacity then .error .capacity else .ok (p ++ [v])

/-- `Clipper::ClassifyPointToPlane`, clipper.cpp L176-194. -/
def classifyR (rnd : ℚ → ℚ) (p : V3 ℚ) (pl : Plane ℚ) (tol : ℚ) : Side :=
  let i := pl.index / 2
  let dist := if pl.index % 2 = 0 then rnd (pl.position - p.get i) else rnd (p.get i - pl.position)
  if dist > tol then .front else if dist < -tol then .behind else .on

/-- One component of the point on the plane, clipper.cpp L210-212; `fused`: product and sum rounded once. -/
def lerpR (rnd : ℚ → ℚ) (fused : Bool) (a b t : ℚ) : ℚ := if fused then rnd (a + t * rnd (b - a)) else rnd (a + rnd (t * rnd (b - a)))

/-- The parameter of the point on the plane, clipper.cpp L204.  Simplification: a quotient by zero is zero instead of infinite or NaN; where the function is called the denominator is not zero. -/
def paramR (rnd : ℚ → ℚ) (pos a b : ℚ) : ℚ := rnd (rnd (pos - a) / rnd (b - a))

/-- `Clipper::FindIntersectionPointOnPlane`, clipper.cpp L196-221. -/
def intersectionR (rnd : ℚ → ℚ) (fused : Bool) (zt : ℚ) (a b : V3 ℚ) (pl : Plane ℚ) : Except ClipErr (V3 ℚ) :=
  let i := pl.index / 2
  let t := paramR rnd pl.position (a.get i) (b.get i)
  if 0 ≤ t ∧ t ≤ 1 then
    let r : V3 ℚ := ⟨lerpR rnd fused a.x b.x t, lerpR rnd fused a.y b.y t, lerpR rnd fused a.z b.z t⟩
    if classifyR rnd r pl zt ≠ .on then .ok (r.set i pl.position) else .ok r
  else .error .noIntersection

/-- The new vertex on the plane, clipper.cpp L117-124 and L139-145. -/
def crossingR (rnd : ℚ → ℚ) (fused : Bool) (zt : ℚ) (a b : Vtx ℚ) (pl : Plane ℚ) : Except ClipErr (Vtx ℚ) :=
  (intersectionR rnd fused zt a.pt b.pt pl).map fun r => Vtx.set ⟨r, fun j => decide (j < pl.index) && (a.on j && b.on j)⟩ pl.index

/-- One pass of the loop of `Clipper::ClipPolygonByPlane`, clipper.cpp L112-171; the tolerance `10.0*ZEROTOL`, clipper.h L113, is rounded. -/
def clipStepR (rnd : ℚ → ℚ) (fused : Bool) (zt : ℚ) (pl : Plane ℚ) (a b : Vtx ℚ) (cur : List (Vtx ℚ)) : Except ClipErr (List (Vtx ℚ)) :=
  match classifyR rnd b.pt pl (rnd (10 * zt)), classifyR rnd a.pt pl (rnd (10 * zt)) with
  | .front, .behind => (crossingR rnd fused zt a b pl).bind fun m => addVertexR cur m
  | .front, _ => .ok cur
  | .on, .behind => addVertexR cur (b.set pl.index)
  | .on, _ => .ok cur
  | .behind, .front => (crossingR rnd fused zt a b pl).bind fun m => (addVertexR cur m).bind fun c => addVertexR c b
  | .behind, .on => (addVertexR cur (a.set pl.index)).bind fun c => addVertexR c b
  | .behind, .behind => addVertexR cur b

/-- The loop of `Clipper::ClipPolygonByPlane`, clipper.cpp L110-173. -/
def clipLoopR (rnd : ℚ → ℚ) (fused : Bool) (zt : ℚ) (pl : Plane ℚ) : Vtx ℚ → List (Vtx ℚ) → List (Vtx ℚ) → Except ClipErr (List (Vtx ℚ))
  | _, [], cur => .ok cur
  | a, b :: rest, cur => (clipStepR rnd fused zt pl a b cur).bind fun c => clipLoopR rnd fused zt pl b rest c

/-- `Clipper::ClipPolygonByPlane`, clipper.cpp L92-174. -/
def clipPlaneR (rnd : ℚ → ℚ) (fused : Bool) (zt : ℚ) (pl : Plane ℚ) (prev : List (Vtx ℚ)) : Except ClipErr (List (Vtx ℚ)) :=
  match prev.getLast? with
  | none => .ok []
  | some a => clipLoopR rnd fused zt pl a prev []

/-- One of the six clips with the test in front of it, clipper.cpp L71-86: the planes of even index if the triangle reaches above the lower bound, the others if it reaches below the upper bound. -/
def clipSideR (rnd : ℚ → ℚ) (fused : Bool) (zt : ℚ) (lo up mn mx : V3 ℚ) (k : Nat) (poly : List (Vtx ℚ)) : Except ClipErr (List (Vtx ℚ)) :=
  if (if k % 2 = 0 then mx.get (k / 2) > lo.get (k / 2) else mn.get (k / 2) < up.get (k / 2)) then clipPlaneR rnd fused zt (plane lo up k) poly else .ok poly

/-- The triangle lies on one of the six planes, clipper.cpp L37-51. -/
def alignedR (rnd : ℚ → ℚ) (zt : ℚ) (p1 p2 p3 lo up : V3 ℚ) : Bool :=
  (List.range 6).any fun k => decide (classifyR rnd p1 (plane lo up k) (rnd (10 * zt)) = .on) && decide (classifyR rnd p2 (plane lo up k) (rnd (10 * zt)) = .on) &&
    decide (classifyR rnd p3 (plane lo up k) (rnd (10 * zt)) = .on)

/-- `Clipper::ClipTriangle`, clipper.cpp L25-90: an error, no polygon (`none`), or a polygon. -/
def clipTriangleR (rnd : ℚ → ℚ) (fused : Bool) (zt : ℚ) (p1 p2 p3 lo up : V3 ℚ) : Except ClipErr (Option (List (Vtx ℚ))) :=
  if alignedR rnd zt p1 p2 p3 lo up then .ok none
  else ((List.range 6).foldlM (fun poly k => clipSideR rnd fused zt lo up (triMin p1 p2 p3) (triMax p1 p2 p3) k poly) [bare p1, bare p2, bare p3]).map some

end QuESo.Round
