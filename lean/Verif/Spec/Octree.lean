import Verif.Spec.Geometry
import Verif.Model.Octree

/-!
# Specification vocabulary for subdivisions of boxes and for integration rules
-/
namespace QuESo.Spec
variable {K : Type _} [Field K] [LinearOrder K]

/-- Lower corner not above the upper corner. -/
def OrderedBox (b : Box K) : Prop :=
  b.lower.x ≤ b.upper.x ∧ b.lower.y ≤ b.upper.y ∧ b.lower.z ≤ b.upper.z

/-- `c` is a (possibly flat) box within `b`. -/
def SubBox (c b : Box K) : Prop :=
  OrderedBox c ∧
  (b.lower.x ≤ c.lower.x ∧ c.upper.x ≤ b.upper.x) ∧ (b.lower.y ≤ c.lower.y ∧ c.upper.y ≤ b.upper.y) ∧
    (b.lower.z ≤ c.lower.z ∧ c.upper.z ≤ b.upper.z)

/-- The boxes `bs` tile the box `b`: they lie in `b`, every point of `b` lies in one of them, and
(counting lower faces but not upper faces) in exactly one of them, and the volumes add up. -/
structure Tiles (b : Box K) (bs : List (Box K)) : Prop where
  within : ∀ c ∈ bs, SubBox c b
  cover : ∀ p, InBox b p → ∃ c ∈ bs, InBox c p
  unique : ∀ p, InBoxHalfOpen b p →
    ∃ l c r, bs = l ++ c :: r ∧ InBoxHalfOpen c p ∧ ∀ d ∈ l ++ r, ¬ InBoxHalfOpen d p
  volume : (bs.map boxVolume).sum = boxVolume b

/-- The eight octants of a box, x varying fastest. -/
def octants (b : Box K) : List (Box K) :=
  let m : V3 K := ⟨(b.lower.x + b.upper.x) / 2, (b.lower.y + b.upper.y) / 2, (b.lower.z + b.upper.z) / 2⟩
  [(b.lower.z, m.z), (m.z, b.upper.z)].flatMap fun z =>
  [(b.lower.y, m.y), (m.y, b.upper.y)].flatMap fun y =>
  [(b.lower.x, m.x), (m.x, b.upper.x)].map fun x => ⟨⟨x.1, y.1, z.1⟩, ⟨x.2, y.2, z.2⟩⟩

/-- The box `c` is the box `b` scaled down by `2^level` in every direction. -/
def ScaledDown (b c : Box K) (level : Nat) : Prop :=
  (c.upper.x - c.lower.x) * 2 ^ level = b.upper.x - b.lower.x ∧
  (c.upper.y - c.lower.y) * 2 ^ level = b.upper.y - b.lower.y ∧
  (c.upper.z - c.lower.z) * 2 ^ level = b.upper.z - b.lower.z

/-- A one-dimensional rule on the unit interval: positions in `[0,1]`. -/
def NodesInUnit (r : List (K × K)) : Prop := ∀ q ∈ r, 0 ≤ q.1 ∧ q.1 ≤ 1

/-- The rule integrates `t^j` over the unit interval exactly for all `j ≤ d`. -/
def ExactUpTo (r : List (K × K)) (d : Nat) : Prop :=
  ∀ j ≤ d, (r.map fun q => q.2 * q.1 ^ j).sum = 1 / (j + 1)

/-- The integral of `x^a y^b z^c` over a box. -/
def monomialIntegral (e : V3 Nat) (b : Box K) : K :=
  ((b.upper.x ^ (e.x + 1) - b.lower.x ^ (e.x + 1)) / (e.x + 1)) *
  ((b.upper.y ^ (e.y + 1) - b.lower.y ^ (e.y + 1)) / (e.y + 1)) *
  ((b.upper.z ^ (e.z + 1) - b.lower.z ^ (e.z + 1)) / (e.z + 1))

/-- The value that an integration rule gives for `x^a y^b z^c`. -/
def ruleValue (e : V3 Nat) (q : List (Mapping.VolPoint K)) : K :=
  (q.map fun q => q.weight * (q.pos.x ^ e.x * q.pos.y ^ e.y * q.pos.z ^ e.z)).sum

end QuESo.Spec
