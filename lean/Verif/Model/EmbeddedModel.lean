import Verif.Model.BackgroundGrid
import Verif.Model.Mapping

/-!
# Model of `queso/embedded_model.cpp`: volume and condition computation

What the geometry says about a cell (classification, points of the trimmed element, clipped surface) is
given by functions; this file models what `EmbeddedModel` makes of it: which elements are built and
stored, under which schedule, what is reported, and which condition segments are created.
Timings and console output are left out.
-/
namespace QuESo.Embedded
open QuESo.BGrid QuESo.Mapping

variable {K : Type _} [Field K] [LinearOrder K]

/-- What an element carries besides its id: bounds and integration points
(`queso/containers/element_base.hpp` L125-180).  The trimmed domain is left out. -/
structure Elem (K : Type _) where
  bounds : Bounds K
  points : List (VolPoint K)

/-- Everything the volume computation reads.  `classes`: the result of `pGetElementClassifications`, one
entry per cell; `bounds i`: bounds of cell `i` (embedded_model.cpp L96-97); `trimmedPts i`: `none` if
`pGetTrimmedDomain` returns no domain for cell `i`, else the points `QuadratureTrimmedElement::AssembleIPs`
leaves in the element (element_builders.hpp L116-137); `gaussPts`: the points of
`QuadratureSingleElement::AssembleIPs`; `ggqPts full id`: the points `QuadratureMultipleElements::AssembleIPs`
appends to element `id` when `full` are the ids of the untrimmed elements. -/
structure VolumeInput (K : Type _) where
  classes : List IState
  bounds : Nat → Bounds K
  trimmedPts : Nat → Option (List (VolPoint K))
  usesGgq : Bool
  gaussPts : Bounds K → List (VolPoint K)
  ggqPts : (Nat → Bool) → Nat → List (VolPoint K)
  volume : K

/-- `active_indices`, embedded_model.cpp L59-84: the indices of the trimmed and inside cells, ascending. -/
def activeIndices (inp : VolumeInput K) : List Nat :=
  (List.range inp.classes.length).filter fun i =>
    match inp.classes[i]? with
    | some .trimmed => true
    | some .inside => true
    | _ => false

/-- Number of iterations of `for (int i = 0; i < static_cast<int>(n); ++i)`, embedded_model.cpp L90 and
L239: the conversion to a 32 bit `int` wraps around, and a negative bound gives no iteration. -/
def tripCount (n : Nat) : Nat :=
  let m := n % 2 ^ 32
  if m < 2 ^ 31 then m else 0

/-- `TrimmedElementBuilder::Build`, element_builders.hpp L116-137. -/
def buildTrimmed (inp : VolumeInput K) (i : Nat) : Option (Elem K) :=
  match inp.trimmedPts i with
  | none => none
  | some ps => if ps.isEmpty then none else some ⟨inp.bounds i, ps⟩

/-- `UntrimmedElementBuilder::Build`, element_builders.hpp L213-220. -/
def buildUntrimmed (inp : VolumeInput K) (i : Nat) : Option (Elem K) :=
  some ⟨inp.bounds i, if inp.usesGgq then [] else inp.gaussPts (inp.bounds i)⟩

/-- The body of the loop, embedded_model.cpp L93-103, as a call on the grid. -/
def callOf (inp : VolumeInput K) (i : Nat) : Kind × Nat × Option (Elem K) :=
  match inp.classes[i]? with
  | some .trimmed => (.trimmed, i + 1, buildTrimmed inp i)
  | _ => (.untrimmed, i + 1, buildUntrimmed inp i)

/-- The loop L91-104 with the iterations executed in the given order (the only effects are the critical
sections of `MakeElement`).  `none`: `MakeElement` raised an error. -/
def makeAll (inp : VolumeInput K) : List Nat → State (Elem K) → Option (State (Elem K))
  | [], s => some s
  | i :: rest, s =>
    let c := callOf inp i
    match s.make c.1 c.2.1 c.2.2 with
    | (s', .inserted) => makeAll inp rest s'
    | (s', .notBuilt) => makeAll inp rest s'
    | (_, .duplicateError) => none
    | (_, .lockedError) => none

/-- `QuadratureMultipleElements::AssembleIPs` as seen from outside, embedded_model.cpp L108-117: points are
appended to the untrimmed elements. -/
def assembleGgq (inp : VolumeInput K) (s : State (Elem K)) : State (Elem K) :=
  { s with
    untrimmed := s.untrimmed.map fun e =>
      (e.1, { e.2 with
        points := e.2.points ++ inp.ggqPts (fun id => (s.getElement .untrimmed id).present) e.1 }) }

/-- Subtraction of `std::size_t` values. -/
def wsub (a b : Nat) : Nat := (a + 2 ^ 64 - b) % 2 ^ 64

/-- The values written to the model info, embedded_model.cpp L144-196. -/
structure VolumeInfo (K : Type _) where
  numActive : Nat
  numTrimmed : Nat
  numFull : Nat
  numInactive : Nat
  totPoints : Nat
  represented : K
  percentage : K
  pointsPerFull : K
  pointsPerTrimmed : K

/-- `std::accumulate` over the weights, embedded_model.cpp L168-171. -/
def weightSum (ps : List (VolPoint K)) : K := ps.foldl (fun a p => a + p.weight) 0

/-- The accumulators of the loop L161-179: represented volume, points in full and in trimmed elements. -/
def accumulate (views : List (Kind × Nat × Elem K)) : K × Nat × Nat :=
  views.foldl (fun a e =>
    let r := a.1 + detJ e.2.2.bounds * weightSum e.2.2.points
    match e.1 with
    | .trimmed => (r, a.2.1, a.2.2 + e.2.2.points.length)
    | .untrimmed => (r, a.2.1 + e.2.2.points.length, a.2.2)) (0, 0, 0)

/-- embedded_model.cpp L144-196.  Sums of numbers of points are not reduced modulo the size of `size_t`. -/
def volumeInfo (inp : VolumeInput K) (s : State (Elem K)) : VolumeInfo K :=
  let numActive := s.numActive
  let numTrimmed := s.numTrimmed
  let numFull := wsub numActive numTrimmed
  let numInactive := wsub inp.classes.length numActive
  let acc := accumulate (s.views .all)
  { numActive := numActive
    numTrimmed := numTrimmed
    numFull := numFull
    numInactive := numInactive
    totPoints := acc.2.2 + acc.2.1
    represented := acc.1
    percentage := acc.1 / inp.volume * 100
    pointsPerFull := if numFull > 0 then (acc.2.1 : K) / (numFull : K) else 0
    pointsPerTrimmed := if numTrimmed > 0 then (acc.2.2 : K) / (numTrimmed : K) else 0 }

/-- The indices the loop L91-104 runs over. -/
def scheduled (inp : VolumeInput K) : List Nat :=
  (activeIndices inp).take (tripCount (activeIndices inp).length)

/-- `EmbeddedModel::ComputeVolume`, embedded_model.cpp L27-196, on a grid in state `s`, with the
iterations of the parallel loop in the order `order` (an arrangement of `scheduled inp`).  `debug`: the
assertion in `MakeElement` is active; in release builds the lock is not looked at. -/
def computeVolume (debug : Bool) (inp : VolumeInput K) (order : List Nat) (s : State (Elem K)) :
    Option (State (Elem K) × VolumeInfo K) :=
  let s0 := if debug then s else { s with locked := false }
  match makeAll inp order s0 with
  | none => none
  | some s1 =>
    let s2 := s1.lock
    let s3 := if inp.usesGgq then assembleGgq inp s2 else s2
    some (s3, volumeInfo inp s3)

/-- A condition segment, `queso/containers/condition_segment.hpp`: cell index, clipped mesh, parent
element (if any). -/
structure Segment (M K : Type _) where
  cell : Nat
  mesh : M
  parent : Option (Kind × Nat × Elem K)

/-- `ComputeCondition`, one iteration of the loop, embedded_model.cpp L240-262.  `clip i`: the surface
clipped to the box of cell `i`; `numTri`, `area`: its number of triangles and area. -/
def condStep {M : Type _} (s : State (Elem K)) (clip : Nat → M) (numTri : M → Nat) (area : M → K)
    (acc : List (Segment M K) × K) (i : Nat) : List (Segment M K) × K :=
  let m := clip i
  if numTri m > 0 then
    match s.getElement .all (i + 1) with
    | .elem k id e => (acc.1 ++ [⟨i, m, some (k, id, e)⟩], acc.2 + area m)
    | _ => (acc.1 ++ [⟨i, m, none⟩], acc.2 + 0)
  else acc

/-- The loop L238-263 in the given order, then the reported percentage L269-272.  The reduction over the
threads is one exact sum. -/
def computeCondition {M : Type _} (s : State (Elem K)) (clip : Nat → M) (numTri : M → Nat) (area : M → K)
    (surfaceArea : K) (order : List Nat) : List (Segment M K) × K :=
  let r := order.foldl (condStep s clip numTri area) ([], 0)
  (r.1, r.2 / surfaceArea * 100)

/-- `CheckIfMeshIsWithinBoundingBox`, embedded_model.cpp L347-373: is the warning printed?  `bb` is the
bounding box of the mesh. -/
def warnsOutside (echo : Nat) (lower upper : V3 K) (bb : Box K) : Bool :=
  decide (echo > 0) &&
    (decide (lower.x > bb.lower.x) || decide (lower.y > bb.lower.y) || decide (lower.z > bb.lower.z) ||
      decide (upper.x < bb.upper.x) || decide (upper.y < bb.upper.y) || decide (upper.z < bb.upper.z))

end QuESo.Embedded
