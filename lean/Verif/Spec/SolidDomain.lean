import Verif.Spec.Surface
import Verif.Spec.TrimmedDomain
import Verif.Model.TrimmedDomain

/-!
# Specification vocabulary: lengths

What the estimate of the quality needs to know about the norm; the Euclidean norm has these properties.
-/
namespace QuESo.Domain
open QuESo.Spec
variable {K : Type} [Field K] [LinearOrder K]

/-- The function measures lengths: it grows with the vector and is one for the unit vectors of the axes. -/
structure IsLength (norm : V3 K → K) : Prop where
  scale : ∀ c v, 0 ≤ c → norm (V3.scale c v) = c * norm v
  axis : ∀ d upper, norm (outwardOf d upper) = 1

/-- How far the points of a cut cell may be off: the error of the rule if the cell has a domain, what is lost with the domain otherwise. -/
def cellError (result : Except AABBTree.Fault (Option (Trimmed K))) (err lost : K) : K :=
  match result with
  | .ok (some _) => err
  | _ => lost

end QuESo.Domain
