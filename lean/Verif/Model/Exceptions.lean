import Verif.Model.EmbeddedModel
import Verif.Model.BRep

/-!
# Model of how calls on a model end

`queso/embedded_model.h` L92-150 (`CreateAllFromSettings`, `CreateVolume`, `CreateCondition`) and the parallel loops of `queso/embedded_model.cpp`.  An exception that leaves an
iteration of an OpenMP loop cannot be caught outside of it: the runtime calls `std::terminate`.  Nothing in the library catches exceptions.
Simplifications: of files only whether reading or writing them raises an exception is kept (their contents: `Model/BinaryIO.lean`, `Model/Vtk.lean`); the construction of an element does not raise exceptions
(`VolumeInput`); messages are left out.
-/
namespace QuESo.Exc
open QuESo.Embedded QuESo.BGrid QuESo.BRep QuESo.GQ

/-- How a call ends: it returns, an exception reaches the caller, the process is terminated, or the behaviour is undefined. -/
inductive Ends (α : Type _) | returns (a : α) | raises | terminates | undefined

/-- What does not change: `debug`: assertions are active; the zero tolerance and the grid. -/
structure Env (K : Type) where
  debug : Bool
  zt : K
  n : V3 Nat
  dom : Box K

/-- The steps of the functions that create a model. -/
inductive Call (K : Type)
  /-- `IO::ReadMeshFromSTL`, embedded_model.h L104, L119; `good`: the file can be read -/
  | read (good : Bool)
  /-- `ComputeVolume`, with the iterations in the order `order` -/
  | volume (inp : VolumeInput K) (order : List Nat)
  /-- `ComputeCondition` for the surface of the operator `g` -/
  | condition (g : Query K) (order : List Nat)
  /-- `WriteModelToFile`, embedded_model.h L127 -/
  | write (good : Bool)

variable {K : Type} [Field K] [LinearOrder K]

/-- The loop in `ComputeCondition`, embedded_model.cpp L237-263: clipping may raise an exception, and so does the assertion in `GetElementView` (background_grid.hpp L129) if
the elements are not locked. -/
def conditionEnds (e : Env K) (s : State (Elem K)) (g : Query K) : List Nat → Ends Unit
  | [] => .returns ()
  | i :: rest =>
    match clipTriangleMeshUnique e.zt g (Grid.boxXYZ e.n e.dom i).lower (Grid.boxXYZ e.n e.dom i).upper with
    | .error .error => .terminates
    | .error _ => .undefined
    | .ok c => if c.mesh.triangles.length > 0 ∧ e.debug ∧ !s.locked then .terminates else conditionEnds e s g rest

/-- One step on a model in state `s`. -/
def Call.ends (e : Env K) (s : State (Elem K)) : Call K → Ends (State (Elem K))
  | .read good => if good then .returns s else .raises
  | .write good => if good then .returns s else .raises
  | .volume inp order =>
    match computeVolume e.debug inp order s with
    | some r => .returns r.1
    | none => .terminates  -- only the loop can fail, embedded_model.cpp L89-104
  | .condition g order =>
    match conditionEnds e s g order with
    | .returns _ => .returns s
    | .raises => .raises
    | .terminates => .terminates
    | .undefined => .undefined

/-- Steps one after the other, until one does not return. -/
def run (e : Env K) : List (Call K) → State (Elem K) → Ends (State (Elem K))
  | [], s => .returns s
  | c :: rest, s =>
    match c.ends e s with
    | .returns s' => run e rest s'
    | .raises => .raises
    | .terminates => .terminates
    | .undefined => .undefined

/-- A condition of the settings: whether its file can be read, its surface, and the order of the iterations. -/
structure Cond (K : Type) where
  good : Bool
  g : Query K
  order : List Nat

/-- `CreateAllFromSettings`, embedded_model.h L96-129. -/
def createAll (good : Bool) (inp : VolumeInput K) (order : List Nat) (conds : List (Cond K)) (writes : Bool) : List (Call K) :=
  .read good :: .volume inp order :: (conds.flatMap fun c => [.read c.good, .condition c.g c.order]) ++ [.write writes]

end QuESo.Exc
