import Verif.Model.BackgroundGrid

/-!
# Specification of the element store

What is stored under an id after a history of calls: the first successful construction with that id
before the store was locked.  Uses only the data types of the model.
-/
namespace QuESo.Spec
open QuESo.BGrid
variable {α : Type _}

/-- The successful constructions of a history, in order, up to the first lock. -/
def built : List (Op α) → List (Kind × Nat × α)
  | [] => []
  | .lock :: _ => []
  | .make _ _ none :: ops => built ops
  | .make k id (some a) :: ops => (k, id, a) :: built ops

/-- The element stored under `id`: the first one built with this id. -/
def stored (ops : List (Op α)) (id : Nat) : Option (Kind × Nat × α) :=
  (built ops).find? (fun e => e.2.1 == id)

/-- The filter accepts elements of this kind. -/
def accepts : Filter → Kind → Bool
  | .all, _ => true
  | .trimmed, .trimmed => true
  | .untrimmed, .untrimmed => true
  | _, _ => false

/-- What a lookup has to answer. -/
def expectedLookup (ops : List (Op α)) (f : Filter) (id : Nat) : Look α :=
  match stored ops id with
  | some (k, i, a) => if accepts f k then .elem k i a else .nothing
  | none => .nothing

end QuESo.Spec
