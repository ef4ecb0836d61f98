import Verif.Model.Rounding
import Verif.Model.Octree

/-!
# Model of the refinement of the octree in floating-point arithmetic

`queso/embedding/octree.cpp` L28-88, L116-123 with every operation rounded, see `Model/Rounding.lean`.  The multiplication by one half is exact in binary arithmetic, so it makes no
difference whether it is fused with an addition.
-/
namespace QuESo.Round
open QuESo.Octree

/-- `operator+` of two vectors, math_utilities.hpp L105-108, rounded. -/
def addR (rnd : ℚ → ℚ) (a b : V3 ℚ) : V3 ℚ := ⟨rnd (a.x + b.x), rnd (a.y + b.y), rnd (a.z + b.z)⟩
/-- `operator-` of two vectors, math_utilities.hpp L110-113, rounded. -/
def subR (rnd : ℚ → ℚ) (a b : V3 ℚ) : V3 ℚ := ⟨rnd (a.x - b.x), rnd (a.y - b.y), rnd (a.z - b.z)⟩
/-- `operator*` of one half and a vector, math_utilities.hpp L123-131, rounded. -/
def halfR (rnd : ℚ → ℚ) (a : V3 ℚ) : V3 ℚ := ⟨rnd (1 / 2 * a.x), rnd (1 / 2 * a.y), rnd (1 / 2 * a.z)⟩

/-- The eight boxes of `Node::Refine`, octree.cpp L32-79. -/
def childBoxR (rnd : ℚ → ℚ) (b : Box ℚ) (k : Nat) : Box ℚ :=
  let lo := b.lower
  let up := b.upper
  let d := halfR rnd (subR rnd up lo)
  let dx : V3 ℚ := ⟨d.x, 0, 0⟩
  let dy : V3 ℚ := ⟨0, d.y, 0⟩
  let dz : V3 ℚ := ⟨0, 0, d.z⟩
  match k with
  | 0 => ⟨lo, addR rnd lo d⟩
  | 1 => ⟨addR rnd lo dx, addR rnd (addR rnd lo dx) d⟩
  | 2 => ⟨subR rnd (subR rnd up dz) d, subR rnd up dz⟩
  | 3 => ⟨addR rnd lo dy, addR rnd (addR rnd lo dy) d⟩
  | 4 => ⟨addR rnd lo dz, addR rnd (addR rnd lo dz) d⟩
  | 5 => ⟨subR rnd (subR rnd up dy) d, subR rnd up dy⟩
  | 6 => ⟨subR rnd up d, up⟩
  | _ => ⟨subR rnd (subR rnd up dx) d, subR rnd up dx⟩

/-- `Node::Refine` on a node without children together with `Node::CreateNewNode`, octree.cpp L28-79 and L116-123, as `Octree.refineLeaf`. -/
def refineLeafR (rnd : ℚ → ℚ) (state : Box ℚ → IState) (minL maxL : Nat) (xyz uvw : Box ℚ) (st : IState) (level : Nat) : Node ℚ :=
  if _h : level < minL ∨ (level < maxL ∧ st = .trimmed) then
    let create := fun k : Nat =>
      let s := state (childBoxR rnd xyz k)
      if s ≠ .outside then refineLeafR rnd state minL maxL (childBoxR rnd xyz k) (childBoxR rnd uvw k) s (level + 1)
      else .null
    let c0 := create 0
    let c1 := create 1
    let c2 := create 2
    let c3 := create 3
    let c4 := create 4
    let c5 := create 5
    let c6 := create 6
    let c7 := create 7
    .node xyz uvw st level (c0.count + c1.count + c2.count + c3.count + c4.count + c5.count + c6.count + c7.count) c0 c1 c2 c3 c4 c5 c6 c7
  else leaf xyz uvw st level
termination_by max minL maxL - level

/-- A new octree after one call of `Refine`, octree.h L156-161, octree.cpp L135-141; `none` is the thrown error. -/
def octreeR (rnd : ℚ → ℚ) (state : Box ℚ → IState) (xyz uvw : Box ℚ) (minL maxL : Nat) : Option (Node ℚ) :=
  if minL > maxL then none else some (refineLeafR rnd state minL maxL xyz uvw .trimmed 0)

end QuESo.Round
