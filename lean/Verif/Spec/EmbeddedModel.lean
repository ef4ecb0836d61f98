import Verif.Model.EmbeddedModel

/-!
# Specification of the volume and condition computation

What the classification asks for, cell by cell.  Uses only the data types of the model.
-/
namespace QuESo.Spec
open QuESo.BGrid QuESo.Mapping QuESo.Embedded
variable {K : Type _} [Field K] [LinearOrder K]

/-- Ids of the cells classified as inside (id = index + 1). -/
def insideId (classes : List IState) (id : Nat) : Bool :=
  decide (0 < id ∧ classes[id - 1]? = some .inside)

/-- The element the classification asks for in cell `i`: a full element in an inside cell (with the
tensor-product points, or those of the generalised rules), a trimmed element in a trimmed cell for which
points were found, nothing otherwise. -/
def wantedElement (inp : VolumeInput K) (i : Nat) : Option (Kind × Elem K) :=
  match inp.classes[i]?, inp.trimmedPts i with
  | some .inside, _ =>
    some (.untrimmed, ⟨inp.bounds i,
      if inp.usesGgq then inp.ggqPts (insideId inp.classes) (i + 1) else inp.gaussPts (inp.bounds i)⟩)
  | some .trimmed, some (p :: ps) => some (.trimmed, ⟨inp.bounds i, p :: ps⟩)
  | _, _ => none

/-- The physical volume the points of an element stand for: the sum of the weights of its points mapped to
physical space. -/
def physicalWeight (e : Elem K) : K := (e.points.map fun p => (ipToGlobal p e.bounds).weight).sum

/-- Sum over the cells that have an element. -/
def cellSum {β : Type _} [AddMonoid β] (inp : VolumeInput K) (f : Kind × Elem K → β) : β :=
  ((List.range inp.classes.length).map fun i => ((wantedElement inp i).map f).getD 0).sum

/-- Points of full elements. -/
def fullPoints (e : Kind × Elem K) : Nat := if e.1 = .untrimmed then e.2.points.length else 0

/-- Points of trimmed elements. -/
def trimmedPoints (e : Kind × Elem K) : Nat := if e.1 = .trimmed then e.2.points.length else 0

end QuESo.Spec
