import Verif.Model.Mapping

/-!
# The domain of an untrimmed element

Models `queso/containers/cell_domain.hpp` over an exact ordered field.
-/
namespace QuESo.CellDomain
variable {K : Type _} [Field K] [LinearOrder K]

/-- `CellDomain::IsInside`, cell_domain.hpp L99-104 (`b` are the bounds in the chosen space). -/
def isInside (b : Box K) (p : V3 K) : Bool :=
  decide (b.lower.x ≤ p.x) && decide (p.x ≤ b.upper.x) && decide (b.lower.y ≤ p.y) && decide (p.y ≤ b.upper.y) &&
    decide (b.lower.z ≤ p.z) && decide (p.z ≤ b.upper.z)

/-- `CellDomain::GetIntersectionState`, cell_domain.hpp L113-135 (`b` are the bounds in the chosen space,
`lower`, `upper` the query box). -/
def intersectionState (b : Box K) (lower upper : V3 K) (tol : K) : IState :=
  let lx := lower.x + tol
  let ly := lower.y + tol
  let lz := lower.z + tol
  let ux := upper.x - tol
  let uy := upper.y - tol
  let uz := upper.z - tol
  let disjoint := decide (ux < b.lower.x) || decide (b.upper.x < lx) || decide (uy < b.lower.y) ||
    decide (b.upper.y < ly) || decide (uz < b.lower.z) || decide (b.upper.z < lz)
  if disjoint then .outside
  else
    let inside := decide (b.lower.x ≤ lx) && decide (ux ≤ b.upper.x) && decide (b.lower.y ≤ ly) &&
      decide (uy ≤ b.upper.y) && decide (b.lower.z ≤ lz) && decide (uz ≤ b.upper.z)
    if inside then .inside else .trimmed

end QuESo.CellDomain
