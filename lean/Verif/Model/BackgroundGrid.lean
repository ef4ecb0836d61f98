import Verif.Model.GridIndexer

/-!
# Model of `queso/containers/background_grid.hpp`
-/
namespace QuESo.BGrid

/-- Which container an element lives in (`ElementFilter::trimmed/untrimmed`, background_grid.hpp L63;
`TBuilderType::Builds`). -/
inductive Kind | trimmed | untrimmed
  deriving DecidableEq, Repr

/-- `ElementFilter`, background_grid.hpp L63. -/
inductive Filter | all | trimmed | untrimmed
  deriving DecidableEq, Repr

/-- `ElementStorageLocation`, background_grid.hpp L89-93. -/
structure Loc where
  isTrimmed : Bool
  index : Nat
  deriving DecidableEq, Repr

/-- The member variables of `BackgroundGrid`, background_grid.hpp L423-428 (without the indexer and
the conditions).  `α` is everything an element carries besides its id.  `idMap` models the
`unordered_map` as an association list with unique keys (only `find`, `contains` and `emplace` are
used; bucket order is irrelevant). -/
structure State (α : Type _) where
  untrimmed : List (Nat × α) := []
  trimmed : List (Nat × α) := []
  idMap : List (Nat × Loc) := []
  locked : Bool := false

/-- Possible results of `MakeElement`. -/
inductive MakeOut | notBuilt | inserted | duplicateError | lockedError
  deriving DecidableEq, Repr

variable {α : Type _}

/-- `mElementIdMap.find(id)`. -/
def State.find (s : State α) (id : Nat) : Option Loc :=
  (s.idMap.find? (fun e => e.1 == id)).map (·.2)

/-- The trimmed branch of the critical section, background_grid.hpp L335-337 and L349. -/
def State.pushTrimmed (s : State α) (id : Nat) (a : α) : State α :=
  { s with
    trimmed := s.trimmed ++ [(id, a)]
    idMap := s.idMap ++ [(id, ⟨true, s.trimmed.length⟩)] }

/-- The untrimmed branch of the critical section, background_grid.hpp L344-346 and L349. -/
def State.pushUntrimmed (s : State α) (id : Nat) (a : α) : State α :=
  { s with
    untrimmed := s.untrimmed ++ [(id, a)]
    idMap := s.idMap ++ [(id, ⟨false, s.untrimmed.length⟩)] }

/-- `MakeElement`, background_grid.hpp L325-352.  `built` is the result of `rBuilder.Build(Id, rBounds)`.
The critical section L330-350 is one atomic step.  The assertion L327 is modelled as in debug builds
(in release builds `QuESo_ASSERT` is empty). -/
def State.make (s : State α) (k : Kind) (id : Nat) (built : Option α) : State α × MakeOut :=
  if s.locked then (s, .lockedError)
  else
    match built with
    | none => (s, .notBuilt)
    | some a =>
      if (s.find id).isSome then (s, .duplicateError)
      else
        match k with
        | .trimmed => (s.pushTrimmed id a, .inserted)
        | .untrimmed => (s.pushUntrimmed id a, .inserted)

/-- `LockElements`, background_grid.hpp L277-278. -/
def State.lock (s : State α) : State α := { s with locked := true }

/-- One call on the grid. -/
inductive Op (α : Type _)
  | make (k : Kind) (id : Nat) (built : Option α)
  | lock

/-- Executes one call (the result is `none` for `LockElements`). -/
def State.step (s : State α) : Op α → State α × Option MakeOut
  | .make k id b => ((s.make k id b).1, some (s.make k id b).2)
  | .lock => (s.lock, none)

/-- Executes a sequence of calls. -/
def State.run (s : State α) (ops : List (Op α)) : State α :=
  ops.foldl (fun s o => (s.step o).1) s

/-- Result of a lookup: nothing, an element (with its kind and its own id), or undefined behaviour
(vector index out of range). -/
inductive Look (α : Type _)
  | nothing
  | elem (k : Kind) (id : Nat) (a : α)
  | ub
  deriving DecidableEq, Repr

/-- `mTrimmedElements[index].View()`: out of range is undefined behaviour. -/
def atIndex (k : Kind) (l : List (Nat × α)) (i : Nat) : Look α :=
  match l[i]? with
  | some (id, a) => .elem k id a
  | none => .ub

/-- `GetElementView<TFilter>`, background_grid.hpp L127-143, and (for the filters `trimmed` and
`untrimmed`) `pGetElement<TFilter>`, L150-168. -/
def State.getElement (s : State α) (f : Filter) (id : Nat) : Look α :=
  match s.find id with
  | none => .nothing
  | some loc =>
    match f with
    | .all => if loc.isTrimmed then atIndex .trimmed s.trimmed loc.index
              else atIndex .untrimmed s.untrimmed loc.index
    | .untrimmed => if !loc.isTrimmed then atIndex .untrimmed s.untrimmed loc.index else .nothing
    | .trimmed => if loc.isTrimmed then atIndex .trimmed s.trimmed loc.index else .nothing

/-- `GetElementViews<TFilter>`, background_grid.hpp L177-194: all untrimmed elements first. -/
def State.views (s : State α) : Filter → List (Kind × Nat × α)
  | .all => s.untrimmed.map (fun e => (.untrimmed, e.1, e.2)) ++ s.trimmed.map (fun e => (.trimmed, e.1, e.2))
  | .untrimmed => s.untrimmed.map (fun e => (.untrimmed, e.1, e.2))
  | .trimmed => s.trimmed.map (fun e => (.trimmed, e.1, e.2))

/-- `NumberOfActiveElements`, L245-246. -/
def State.numActive (s : State α) : Nat := s.untrimmed.length + s.trimmed.length
/-- `NumberOfUntrimmedElements`, L250-251. -/
def State.numUntrimmed (s : State α) : Nat := s.untrimmed.length
/-- `NumberOfTrimmedElements`, L255-256. -/
def State.numTrimmed (s : State α) : Nat := s.trimmed.length

/-- `NextElementViewResult` / `NextElementResult`, L66-86. -/
structure NextResult (α : Type _) where
  element : Look α
  nextId : Nat
  isEnd : Bool

/-- Is an element present (`!element` of L406)? -/
def Look.present : Look α → Bool
  | .elem _ _ _ => true
  | _ => false

/-- `GetNextElement`/`GetNextElementView` (L287-310) through `GetNextElementByDirection` (L365-388)
and `GetNextElementByIndexer` (L400-417).  Note that the element is fetched and returned also when the
step wrapped to another row. -/
def State.nextElement (s : State α) (n : V3 Nat) (f : Filter) (id : Nat) (d : Dir) : NextResult α :=
  let st := Grid.nextGlobal n d (id - 1)
  let nextId := st.1 + 1
  let isEnd := st.2 != .middle
  let element := s.getElement f nextId
  ⟨element, nextId, if !element.present then true else isEnd⟩

/-- `BackgroundGrid::IsEnd`, L316-317. -/
def isEnd (n : V3 Nat) (id : Nat) (d : Dir) : Bool :=
  Grid.isEnd n (Grid.globalPartition n) d (id - 1)

end QuESo.BGrid
