import Verif.Model.FloodFill
import Verif.Model.EmbeddedModel

/-!
# Model of the memory accesses of the parallel loops

The parallel regions of `queso/embedding/flood_fill.cpp`, `queso/embedded_model.cpp`, `queso/containers/background_grid.hpp`,
`queso/embedding/element_builders.hpp` and `queso/utilities/mesh_utilities.cpp`: for every iteration the accesses to memory that another iteration might reach, in the order in which
they happen.  The functions of the fill and of the merge do the same as those of `Model/FloodFill.lean` (theorems `C109_same_fill`, `C109_same_merge`) and keep a log.
Simplifications: objects that live on the stack of an iteration (boxes, groups before they are stored, clipped meshes, new elements) are left out; a vector is one object for
`push_back`, `emplace_back` and reading of its elements by pointers that it holds, and one object per element for `v[i]`; everything that no loop writes is one object
(`constant`: the surface and its search tree, the grid and its indexer, the settings stored in the builders).  Writing to `std::cout` and `std::cerr` is left out: the library of C++
allows it from several threads.
-/
namespace QuESo.Par
open QuESo.Grid QuESo.Flood

/-- Objects in memory. -/
inductive Loc
  /-- `num_threads`, flood_fill.cpp L69 -/
  | numThreads
  /-- What no loop writes -/
  | constant
  /-- `rPartitions[p]` -/
  | partition (p : Nat)
  /-- The copy of `visited` of a thread (`firstprivate`), flood_fill.cpp L123-124; `std::vector<bool>` packs its entries, so this is one object -/
  | visited (thread : Nat)
  /-- `rStates[i]`, `r_classifications[i]` (a vector of enumerators) -/
  | state (i : Nat)
  /-- `rGroupSetVector` while it grows -/
  | groups
  /-- Set of cells and partition, and inside count of `rGroups[g]` -/
  | groupCells (g : Nat) | groupCount (g : Nat)
  /-- `group_bounding_boxes[g]`, `group_boundary_indices[g]` -/
  | groupBox (g : Nat) | groupBoundary (g : Nat)
  /-- `active_indices[k]` -/
  | active (k : Nat)
  /-- `mElementsLocked`, `mElementIdMap`, and the vectors of elements, background_grid.hpp -/
  | locked | idMap | elements
  /-- `mElapsedIntersectionTime`, `mElapsedMomentFittingTime`, element_builders.hpp -/
  | intersectionTime | fittingTime
  /-- The segments of the new condition -/
  | segments
  /-- The copy of a reduction variable of a thread -/
  | sum (thread : Nat)
  deriving DecidableEq, Repr

/-- How an access is ordered with respect to other threads: not at all, in a critical section (none has a name, so there is one lock), or as an atomic operation. -/
inductive Sync | none | critical | atomic
  deriving DecidableEq, Repr

/-- An access. -/
structure Access where
  loc : Loc
  write : Bool
  sync : Sync
  deriving DecidableEq, Repr

/-- Reading. -/
def rd (l : Loc) : Access := ⟨l, false, .none⟩
/-- Writing. -/
def wr (l : Loc) : Access := ⟨l, true, .none⟩
/-- Reading and writing in a critical section. -/
def crit (l : Loc) : List Access := [⟨l, false, .critical⟩, ⟨l, true, .critical⟩]

/-! ## Number of threads -/

/-- The parallel region that asks for the number of threads, flood_fill.cpp L70-73: every thread of the team assigns to the shared variable. -/
def teamSize : List Access := [wr .numThreads]

/-! ## Flood fill -/

/-- What a thread does during the fill that concerns memory outside of its stack. -/
inductive Step
  /-- Ask the grid, the partition and the surface -/
  | look
  /-- Read or change the copy of `visited` of the thread -/
  | test | tick
  /-- `rStates[j] = IntersectionState::trimmed`, flood_fill.cpp L153, L211 -/
  | mark (j : Nat)
  /-- `rGroupSetVector.push_back`, flood_fill.cpp L136-137 -/
  | push (g : Group)
  deriving DecidableEq, Repr

/-- Accesses of a step in iteration `pi` on the thread `t`. -/
def Step.accesses (t pi : Nat) : Step → List Access
  | .look => [rd .constant, rd (.partition pi)]
  | .test => [rd (.visited t)]
  | .tick => [wr (.visited t)]
  | .mark j => [wr (.state j)]
  | .push _ => crit .groups

/-- `Move` with its steps, flood_fill.cpp L181-221. -/
def moveLog (G : Geo) (n : V3 Nat) (p : Partition) (i : Nat) (d : Dir) (st : FS) : (FS × Option Nat) × List Step :=
  let r := next n p d i
  let j := r.1
  if r.2 ≠ .middle then ((st, none), [.look])
  else if G.trimP j d then (({ st with count := st.count + G.side i j d }, none), [.look])
  else if j ∈ st.visited then ((st, none), [.look, .test])
  else if G.trim j then (({ st with visited := j :: st.visited, trimmed := j :: st.trimmed }, none), [.look, .test, .look, .tick, .mark j])
  else (({ st with visited := j :: st.visited, cells := j :: st.cells }, some j), [.look, .test, .look, .tick])

/-- The six directions, flood_fill.cpp L165-167. -/
def movesLog (G : Geo) (n : V3 Nat) (p : Partition) (i : Nat) : List Dir → FS → (FS × List Nat) × List Step
  | [], st => ((st, []), [])
  | d :: ds, st =>
    let r := moveLog G n p i d st
    let r' := movesLog G n p i ds r.1.1
    ((r'.1.1, r.1.2.toList ++ r'.1.2), r.2 ++ r'.2)

/-- The loop of `Fill`, flood_fill.cpp L161-176. -/
def fillLog (G : Geo) (n : V3 Nat) (p : Partition) : Nat → List Nat → FS → Option FS × List Step
  | _, [], st => (some st, [])
  | 0, _ :: _, _ => (none, [])
  | fuel + 1, i :: stack, st =>
    let r := movesLog G n p i directions st
    let r' := fillLog G n p fuel (r.1.2.reverse ++ stack) r.1.1
    (r'.1, r.2 ++ r'.2)

/-- One cell, flood_fill.cpp L130-139 and L146-179. -/
def scanCellLog (G : Geo) (n : V3 Nat) (p : Partition) (pi fuel i : Nat) (ps : PS) : Option PS × List Step :=
  if i ∈ ps.visited then (some ps, [.look, .test])
  else if G.trim i then (some { ps with visited := i :: ps.visited, trimmed := i :: ps.trimmed }, [.look, .test, .tick, .look, .mark i])
  else
    let r := fillLog G n p fuel [i] ⟨i :: ps.visited, ps.trimmed, [i], 0⟩
    match r.1 with
    | none => (none, [.look, .test, .tick, .look] ++ r.2)
    | some st => (some ⟨st.visited, st.trimmed, ps.groups ++ [⟨pi, st.cells, st.count⟩]⟩, [.look, .test, .tick, .look] ++ r.2 ++ [.push ⟨pi, st.cells, st.count⟩])

/-- The nested loops, flood_fill.cpp L126-128. -/
def scanLog (G : Geo) (n : V3 Nat) (p : Partition) (pi fuel : Nat) : List Nat → PS → Option PS × List Step
  | [], ps => (some ps, [])
  | i :: rest, ps =>
    let r := scanCellLog G n p pi fuel i ps
    match r.1 with
    | none => (none, r.2)
    | some ps' =>
      let r' := scanLog G n p pi fuel rest ps'
      (r'.1, r.2 ++ r'.2)

/-- Iteration `pi` of the loop in `PartitionedFill`, flood_fill.cpp L125-142, for a thread that has the marks and groups `ps`. -/
def partitionLog (G : Geo) (n : V3 Nat) (fuel pi : Nat) (p : Partition) (ps : PS) : Option PS × List Step := scanLog G n p pi fuel (partCells n p) ps

/-- The accesses of iteration `pi` on the thread `t`; `old`: the marks in the copy of the thread. -/
def fillAccesses (G : Geo) (n : V3 Nat) (threads fuel : Nat) (old : Nat → List Nat) (t pi : Nat) : List Access :=
  match (partitions n threads)[pi]? with
  | some p => rd (.partition pi) :: (partitionLog G n fuel pi p ⟨old pi, [], []⟩).2.flatMap (Step.accesses t pi)
  | none => []

/-- The partitions (with their indices) that one thread fills, one after the other, flood_fill.cpp L124-142: `visited` is copied once for each thread, so the marks of the earlier
partitions are still there.  (Groups and marks of the thread alone, in the order in which it stores them; the second component are its steps.) -/
def fillThread (G : Geo) (n : V3 Nat) (fuel : Nat) : List (Nat × Partition) → PS → Option PS × List Step
  | [], ps => (some ps, [])
  | (pi, p) :: rest, ps =>
    let r := partitionLog G n fuel pi p ps
    match r.1 with
    | none => (none, r.2)
    | some ps' =>
      let r' := fillThread G n fuel rest ps'
      (r'.1, r.2 ++ r'.2)

/-- Memory that the threads share: `rStates` and `rGroupSetVector`. -/
structure Shared where
  states : Nat → St
  groups : List Group

/-- Memory before the fill, flood_fill.cpp L43-44, L101. -/
def Shared.init : Shared := ⟨fun _ => .outside, []⟩

/-- Effect of a step on the shared memory. -/
def Shared.step (m : Shared) : Step → Shared
  | .mark j => { m with states := fun i => if i = j then .trimmed else m.states i }
  | .push g => { m with groups := m.groups ++ [g] }
  | _ => m

/-- What follows the fill, flood_fill.cpp L104-114: groups are merged and their cells marked. -/
def finish (G : Geo) (n : V3 Nat) (threads fuel : Nat) (m : Shared) : Option (Nat → St) :=
  (mergeGroups G n (partitionDir n) (partitions n threads) fuel m.groups).map fun ms i =>
    ms.foldl (fun s g => if i ∈ g.cells then (if g.count > 0 then .inside else .outside) else s) (m.states i)

/-! ## Merging of groups -/

/-- The accesses for one cell of the group `g`, flood_fill.cpp L254-303. -/
def cellAccesses (G : Geo) (n : V3 Nat) (pd : Nat) (p : Partition) (g part : Nat) (b : Bnd) (i : Nat) : List Access :=
  let c := coord pd (toMat n i)
  let f := (nextGlobal n (fwd pd) i).1
  let w := (nextGlobal n (bwd pd) i).1
  [rd .constant, rd (.groupBox g)] ++
    (if b.upBox ≤ c ∧ !G.trimP f (fwd pd) then (if b.upBox < c then [wr (.groupBox g)] else []) ++ [wr (.groupBoundary g)] else []) ++
  [rd (.groupBox g)] ++
    (if c ≤ b.lowBox ∧ !G.trimP w (bwd pd) then (if c < b.lowBox then [wr (.groupBox g)] else []) ++ [wr (.groupBoundary g)] else []) ++
  [rd (.partition part)] ++
    (if c = coord pd p.second ∧ G.trimP f (fwd pd) then [rd (.groupCount g), wr (.groupCount g)] else []) ++
    (if c = coord pd p.first ∧ G.trimP w (bwd pd) then [rd (.groupCount g), wr (.groupCount g)] else [])

/-- The loop over the cells of a group: boundary cells, votes, accesses. -/
def cellsLog (G : Geo) (n : V3 Nat) (pd : Nat) (p : Partition) (g part : Nat) : List Nat → Bnd → Int → (Bnd × Int) × List Access
  | [], b, v => ((b, v), [])
  | i :: rest, b, v =>
    let r := cellsLog G n pd p g part rest (bndStep G n pd b i) (v + extraVotes G n pd p i)
    (r.1, rd (.groupCells g) :: cellAccesses G n pd p g part b i ++ r.2)

/-- Iteration `g` of the parallel loop in `MergeGroups`, flood_fill.cpp L243-305. -/
def mergeAccesses (G : Geo) (n : V3 Nat) (pd : Nat) (parts : List Partition) (groups : List Group) (g : Nat) : List Access :=
  match groups[g]? with
  | none => []
  | some gr =>
    match parts[gr.part]? with
    | none => [rd (.groupCells g)]
    | some p => rd (.groupCells g) :: (cellsLog G n pd p g gr.part gr.cells (Bnd.init n pd) gr.count).2

/-! ## Elements -/

/-- Iteration `k` of the loop over the active cells, embedded_model.cpp L90-104, with `MakeElement` (background_grid.hpp L322-350) and `Build` (element_builders.hpp L107-137,
L213-220).  `debug`: the assertion is active.  If the identification exists already the exception is raised before anything is written. -/
def volumeAccesses {K : Type _} (debug : Bool) (inp : Embedded.VolumeInput K) (s : BGrid.State (Embedded.Elem K)) (k : Nat) : List Access :=
  match (Embedded.activeIndices inp)[k]? with
  | none => []
  | some i =>
    let c := Embedded.callOf inp i
    [rd (.active k), rd (.state i), rd .constant] ++ (if debug then [rd .locked] else []) ++
    (match c.1 with
      | .trimmed => ⟨.intersectionTime, true, .atomic⟩ :: (if (inp.trimmedPts i).isSome then [⟨.fittingTime, true, .atomic⟩] else [])
      | .untrimmed => []) ++
    (match c.2.2 with
      | none => []
      | some _ => ⟨.idMap, false, .critical⟩ :: (if (s.getElement .all c.2.1).present then [] else crit .elements ++ [⟨.idMap, true, .critical⟩]))

/-- Iteration `i` of the loop over all cells in `ComputeCondition`, embedded_model.cpp L238-263, on the thread `t`; `nonempty`: the clipped surface has triangles. -/
def conditionAccesses (nonempty : Nat → Bool) (t i : Nat) : List Access :=
  rd .constant :: (if nonempty i then [rd .idMap, rd .elements, rd (.sum t), wr (.sum t)] ++ crit .segments else [])

/-- One iteration of `AreaOMP` or `VolumeOMP`, mesh_utilities.cpp L199-202 and L220-225, on the thread `t`. -/
def sumAccesses (t : Nat) : List Access := [rd .constant, rd (.sum t), wr (.sum t)]

end QuESo.Par
