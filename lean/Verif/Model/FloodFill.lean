import Verif.Model.GridIndexer

/-!
# Model of `queso/embedding/flood_fill.h/.cpp`

Cells are vector indices of the grid.  The geometry (`BRepOperator`) is an oracle.
-/
namespace QuESo.Flood
open QuESo.Grid

/-- What the fill asks the geometry: `trim i` is `IsTrimmed` of the box of cell `i`; `trimP j d` is
`IsTrimmed` of the box of cell `j` enlarged against direction `d` (`GetOffsets`, flood_fill.cpp L390-409);
`side i j d` is `GetIsInsideCount` (L377-387), +1 or -1. -/
structure Geo where
  trim : Nat → Bool
  trimP : Nat → Dir → Bool
  side : Nat → Nat → Dir → Int

section Geometry
variable {K : Type _} [Field K] [LinearOrder K]

/-- `RelativeSnapTolerance(rDelta, Tolerance)`, core_definitions.hpp L77-79 (exact arithmetic). -/
def relSnap (delta : V3 K) (t : K) : K := max (max delta.x (max delta.y delta.z) * t) t

/-- `RelativeSnapTolerance(rLowerBound, rUpperBound, Tolerance)`, core_definitions.hpp L70-75. -/
def relSnapBox (b : Box K) (t : K) : K :=
  relSnap ⟨b.upper.x - b.lower.x, b.upper.y - b.lower.y, b.upper.z - b.lower.z⟩ t

/-- The offset of `GetOffsets`, flood_fill.cpp L391 with `mDelta` of flood_fill.h L72-74; `t` is `SNAPTOL`. -/
def offsetTol (n : V3 Nat) (dom : Box K) (t : K) : K :=
  10 * relSnap ⟨delta dom.lower.x dom.upper.x n.x, delta dom.lower.y dom.upper.y n.y,
    delta dom.lower.z dom.upper.z n.z⟩ t

/-- `GetOffsets` added to a box, flood_fill.cpp L390-409 and L196. -/
def perturb (tol : K) (d : Dir) (b : Box K) : Box K :=
  match d with
  | .xf => { b with lower := { b.lower with x := b.lower.x - tol } }
  | .xb => { b with upper := { b.upper with x := b.upper.x + tol } }
  | .yf => { b with lower := { b.lower with y := b.lower.y - tol } }
  | .yb => { b with upper := { b.upper with y := b.upper.y + tol } }
  | .zf => { b with lower := { b.lower with z := b.lower.z - tol } }
  | .zb => { b with upper := { b.upper with z := b.upper.z + tol } }

/-- Centre of a box, flood_fill.cpp L380. -/
def center (b : Box K) : V3 K :=
  ⟨1 / 2 * (b.lower.x + b.upper.x), 1 / 2 * (b.lower.y + b.upper.y), 1 / 2 * (b.lower.z + b.upper.z)⟩

/-- The oracle that belongs to a geometry given by `IsTrimmed(lower, upper)` and
`OnBoundedSideOfClippedSection(point, lower, upper)`; flood_fill.cpp L151-153, L195-196, L377-387. -/
def geoOf (isTrimmed : Box K → Bool) (onBounded : V3 K → Box K → Bool) (tol : K) (n : V3 Nat) (dom : Box K) : Geo where
  trim i := isTrimmed (boxXYZ n dom i)
  trimP j d := isTrimmed (perturb tol d (boxXYZ n dom j))
  side i j d := if onBounded (center (boxXYZ n dom i)) (perturb tol d (boxXYZ n dom j)) then 1 else -1
end Geometry

/-- `GroupSetType`, flood_fill.h: partition index, set of cells, inside count.  The `std::set` is a list. -/
structure Group where
  part : Nat
  cells : List Nat
  count : Int
  deriving DecidableEq, Repr

/-- What `Fill` and `Move` change: visited cells, cells marked as trimmed, and the current group. -/
structure FS where
  visited : List Nat
  trimmed : List Nat
  cells : List Nat
  count : Int

/-- `Move`, flood_fill.cpp L181-221. -/
def move (G : Geo) (n : V3 Nat) (p : Partition) (i : Nat) (d : Dir) (st : FS) : FS × Option Nat :=
  let r := next n p d i
  let j := r.1
  if r.2 ≠ .middle then (st, none)
  else if G.trimP j d then ({ st with count := st.count + G.side i j d }, none)
  else if j ∈ st.visited then (st, none)
  else if G.trim j then ({ st with visited := j :: st.visited, trimmed := j :: st.trimmed }, none)
  else ({ st with visited := j :: st.visited, cells := j :: st.cells }, some j)

/-- The loop over the six directions, flood_fill.cpp L165-167; returns the new indices in order. -/
def moves (G : Geo) (n : V3 Nat) (p : Partition) (i : Nat) : List Dir → FS → FS × List Nat
  | [], st => (st, [])
  | d :: ds, st =>
    let r := move G n p i d st
    let r' := moves G n p i ds r.1
    (r'.1, r.2.toList ++ r'.2)

/-- The stack loop of `Fill`, flood_fill.cpp L161-176 (`none`: not finished within `fuel` iterations).  The
top of the stack is the head of the list. -/
def fillLoop (G : Geo) (n : V3 Nat) (p : Partition) : Nat → List Nat → FS → Option FS
  | _, [], st => some st
  | 0, _ :: _, _ => none
  | fuel + 1, i :: stack, st =>
    let r := moves G n p i directions st
    fillLoop G n p fuel (r.2.reverse ++ stack) r.1

/-- What a partition accumulates: visited cells, trimmed marks and finished groups. -/
structure PS where
  visited : List Nat
  trimmed : List Nat
  groups : List Group

/-- One cell of the scan in `PartitionedFill` (flood_fill.cpp L129-139) with `Fill` (L146-179) inlined. -/
def scanCell (G : Geo) (n : V3 Nat) (p : Partition) (pi fuel : Nat) (i : Nat) (ps : PS) : Option PS :=
  if i ∈ ps.visited then some ps
  else if G.trim i then some { ps with visited := i :: ps.visited, trimmed := i :: ps.trimmed }
  else
    match fillLoop G n p fuel [i] ⟨i :: ps.visited, ps.trimmed, [i], 0⟩ with
    | none => none
    | some st => some ⟨st.visited, st.trimmed, ps.groups ++ [⟨pi, st.cells, st.count⟩]⟩

/-- The three nested loops over a partition, flood_fill.cpp L126-128: x outermost, z innermost. -/
def partCells (n : V3 Nat) (p : Partition) : List Nat :=
  (List.range' p.first.x (p.second.x + 1 - p.first.x)).flatMap fun i =>
    (List.range' p.first.y (p.second.y + 1 - p.first.y)).flatMap fun j =>
      (List.range' p.first.z (p.second.z + 1 - p.first.z)).map fun k => toVec n ⟨i, j, k⟩

/-- A list of cells scanned one after the other. -/
def scan (G : Geo) (n : V3 Nat) (p : Partition) (pi fuel : Nat) : List Nat → PS → Option PS
  | [], ps => some ps
  | i :: rest, ps =>
    match scanCell G n p pi fuel i ps with
    | none => none
    | some ps' => scan G n p pi fuel rest ps'

/-- The work of one iteration of the parallel loop in `PartitionedFill`, flood_fill.cpp L120-144.
Simplification: `visited` starts empty for every partition; in the code it is private to the thread, and a thread
that handles several partitions keeps it, which makes no difference (theorem `C13_reused_marks`). -/
def fillPartition (G : Geo) (n : V3 Nat) (fuel pi : Nat) (p : Partition) : Option PS :=
  scan G n p pi fuel (partCells n p) ⟨[], [], []⟩

/-- All partitions; results in the order of the partitions. -/
def fillAll (G : Geo) (n : V3 Nat) (fuel : Nat) : Nat → List Partition → Option (List PS)
  | _, [] => some []
  | pi, p :: ps =>
    match fillPartition G n fuel pi p, fillAll G n fuel (pi + 1) ps with
    | some r, some rs => some (r :: rs)
    | _, _ => none

/-- Component along the partition direction 0, 1, 2. -/
def coord (pd : Nat) (v : V3 Nat) : Nat := v.get pd

/-- `walk_directions`, flood_fill.cpp L229-230. -/
def fwd (pd : Nat) : Dir := if pd = 0 then .xf else if pd = 1 then .yf else .zf
def bwd (pd : Nat) : Dir := if pd = 0 then .xb else if pd = 1 then .yb else .zb

/-- Bounding box along the partition direction and the boundary cells of a group (L232-240). -/
structure Bnd where
  lowBox : Int
  upBox : Int
  low : List Nat
  up : List Nat

/-- Initial values, flood_fill.cpp L232-240. -/
def Bnd.init (n : V3 Nat) (pd : Nat) : Bnd := ⟨(coord pd n : Int) + 1, -1, [], []⟩

/-- One cell in the loop of `MergeGroups`, flood_fill.cpp L254-283.  The `IndexInfo` of the step is
ignored, as in the code. -/
def bndStep (G : Geo) (n : V3 Nat) (pd : Nat) (b : Bnd) (i : Nat) : Bnd :=
  let c : Int := coord pd (toMat n i)
  let b1 :=
    if b.upBox ≤ c ∧ !G.trimP (nextGlobal n (fwd pd) i).1 (fwd pd) then
      if b.upBox < c then { b with upBox := c, up := [i] } else { b with up := i :: b.up }
    else b
  if c ≤ b1.lowBox ∧ !G.trimP (nextGlobal n (bwd pd) i).1 (bwd pd) then
    if c < b1.lowBox then { b1 with lowBox := c, low := [i] } else { b1 with low := i :: b1.low }
  else b1

/-- Boundary cells of a group. -/
def bnd (G : Geo) (n : V3 Nat) (pd : Nat) (g : Group) : Bnd := g.cells.foldl (bndStep G n pd) (Bnd.init n pd)

/-- The votes added for one cell at the bounds of its partition, flood_fill.cpp L285-303 (`IndexInfo`
ignored). -/
def extraVotes (G : Geo) (n : V3 Nat) (pd : Nat) (p : Partition) (i : Nat) : Int :=
  let c := coord pd (toMat n i)
  let f := (nextGlobal n (fwd pd) i).1
  let b := (nextGlobal n (bwd pd) i).1
  (if c = coord pd p.second ∧ G.trimP f (fwd pd) then G.side i f (fwd pd) else 0) +
  (if c = coord pd p.first ∧ G.trimP b (bwd pd) then G.side i b (bwd pd) else 0)

/-- The group after the parallel loop of `MergeGroups`, flood_fill.cpp L242-305. -/
def addVotes (G : Geo) (n : V3 Nat) (pd : Nat) (parts : List Partition) (g : Group) : Group :=
  match parts[g.part]? with
  | none => g
  | some p => { g with count := g.count + (g.cells.map (extraVotes G n pd p)).sum }

/-- The search for a common face, flood_fill.cpp L349-357: leaves the loop at the first cell whose step is not
'middle'. -/
def touches (n : V3 Nat) (d : Dir) (other : List Nat) : List Nat → Bool
  | [] => false
  | i :: rest =>
    let r := nextGlobal n d i
    if r.2 ≠ .middle then false
    else if r.1 ∈ other then true
    else touches n d other rest

/-- `are_neighbours`, flood_fill.cpp L342-358. -/
def areNeighbours (n : V3 Nat) (pd : Nat) (cur other : Bnd) : Bool :=
  touches n (fwd pd) other.low cur.up || touches n (bwd pd) other.up cur.low

/-- The inner loop of `GroupFill` over all groups, flood_fill.cpp L338-371.  `gs` are the groups with their
boundary cells and index; result: visited group indices, pushed indices (in order), merged group. -/
def joinStep (n : V3 Nat) (pd : Nat) (cur : Group × Bnd) :
    List (Nat × Group × Bnd) → List Nat → Group → List Nat × List Nat × Group
  | [], visited, m => (visited, [], m)
  | (i, g, b) :: rest, visited, m =>
    if i ∉ visited ∧ ((cur.1.part : Int) - (g.part : Int)).natAbs ≤ 1 ∧ areNeighbours n pd cur.2 b then
      let r := joinStep n pd cur rest (i :: visited) { m with cells := m.cells ++ g.cells, count := m.count + g.count }
      (r.1, i :: r.2.1, r.2.2)
    else joinStep n pd cur rest visited m

/-- The stack loop of `GroupFill`, flood_fill.cpp L331-373. -/
def groupLoop (n : V3 Nat) (pd : Nat) (gs : List (Nat × Group × Bnd)) :
    Nat → List Nat → List Nat → Group → Option (List Nat × Group)
  | _, [], visited, m => some (visited, m)
  | 0, _ :: _, _, _ => none
  | fuel + 1, i :: stack, visited, m =>
    match gs[i]? with
    | none => none
    | some (_, cur) =>
      let r := joinStep n pd cur gs visited m
      groupLoop n pd gs fuel (r.2.1.reverse ++ stack) r.1 r.2.2

/-- The loop over all groups at the end of `MergeGroups`, flood_fill.cpp L307-315. -/
def mergeLoop (n : V3 Nat) (pd : Nat) (gs : List (Nat × Group × Bnd)) (fuel : Nat) :
    List (Nat × Group × Bnd) → List Nat → Option (List Group)
  | [], _ => some []
  | (i, g, _) :: rest, visited =>
    if i ∈ visited then mergeLoop n pd gs fuel rest visited
    else
      match groupLoop n pd gs fuel [i] (i :: visited) g with
      | none => none
      | some (visited', m) =>
        match mergeLoop n pd gs fuel rest visited' with
        | none => none
        | some ms => some (m :: ms)

/-- Attaches boundary cells and indices. -/
def indexed (G : Geo) (n : V3 Nat) (pd : Nat) (parts : List Partition) (groups : List Group) :
    List (Nat × Group × Bnd) :=
  (groups.zipIdx).map (fun gi => (gi.2, addVotes G n pd parts gi.1, bnd G n pd gi.1))

/-- `MergeGroups`, flood_fill.cpp L223-316. -/
def mergeGroups (G : Geo) (n : V3 Nat) (pd : Nat) (parts : List Partition) (fuel : Nat) (groups : List Group) :
    Option (List Group) :=
  mergeLoop n pd (indexed G n pd parts groups) fuel (indexed G n pd parts groups) []

/-- `IntersectionState`. -/
inductive St | inside | outside | trimmed
  deriving DecidableEq, Repr

/-- The final state of a cell: flood_fill.cpp L43-44 (all outside), the trimmed marks, and L107-114 (the marks of
the merged groups, later groups overwrite earlier ones). -/
def finalState (trimmed : List Nat) (merged : List Group) (i : Nat) : St :=
  merged.foldl (fun s g => if i ∈ g.cells then (if g.count > 0 then .inside else .outside) else s)
    (if i ∈ trimmed then .trimmed else .outside)

/-- `partition_index`, flood_fill.cpp L47-65. -/
def partitionDir (n : V3 Nat) : Nat :=
  let m := max (max n.x n.y) n.z
  if n.x = m then 0 else if n.y = m then 1 else 2

/-- `partition_size`, flood_fill.cpp L75-76 (the `ceil` of a quotient of doubles as exact integer
arithmetic). -/
def partitionSize (num threads : Nat) : Nat := max ((num + threads - 1) / threads) 1

/-- The loop that creates the partitions, flood_fill.cpp L78-86. -/
def partitions (n : V3 Nat) (threads : Nat) : List Partition :=
  let pd := partitionDir n
  let num := coord pd n
  let size := partitionSize num threads
  (List.range threads).filterMap (fun i =>
    if size * i < num then
      some ⟨(V3.mk 0 0 0).set pd (size * i), (V3.mk (n.x - 1) (n.y - 1) (n.z - 1)).set pd (min (size * (i + 1)) num - 1)⟩
    else none)

/-- `ClassifyElements`, flood_fill.cpp L39-118, for a number of threads and a `schedule`: the order in which the
groups of all partitions arrive in the shared vector (any reordering of the list of all groups). -/
def classify (G : Geo) (n : V3 Nat) (threads : Nat) (schedule : List Group → List Group) (fuel : Nat) :
    Option (List Group × (Nat → St)) :=
  match fillAll G n fuel 0 (partitions n threads) with
  | none => none
  | some rs =>
    match mergeGroups G n (partitionDir n) (partitions n threads) fuel (schedule (rs.flatMap (·.groups))) with
    | none => none
    | some ms => some (ms, finalState (rs.flatMap (·.trimmed)) ms)

end QuESo.Flood
