import Verif.Model.Basic
import Mathlib.Algebra.Order.Field.Basic

/-!
# Vector arithmetic

Models the free functions of `queso/utilities/math_utilities.hpp` over an exact ordered field `K`
(simplification: no rounding).
-/
namespace QuESo
variable {K : Type _} [Field K]

/-- `operator+` of two vectors, `queso/utilities/math_utilities.hpp` L92-95. -/
instance : Add (V3 K) := ⟨fun a b => ⟨a.x + b.x, a.y + b.y, a.z + b.z⟩⟩

/-- `operator-` of two vectors, `queso/utilities/math_utilities.hpp` L110-113. -/
instance : Sub (V3 K) := ⟨fun a b => ⟨a.x - b.x, a.y - b.y, a.z - b.z⟩⟩

/-- `operator*` of a number and a vector, `queso/utilities/math_utilities.hpp` L123-131. -/
def V3.scale (c : K) (a : V3 K) : V3 K := ⟨c * a.x, c * a.y, c * a.z⟩

/-- `Math::Dot`, `queso/utilities/math_utilities.hpp` L43-45. -/
def V3.dot (a b : V3 K) : K := a.x * b.x + a.y * b.y + a.z * b.z

/-- `Math::Cross`, `queso/utilities/math_utilities.hpp` L59-63. -/
def V3.cross (a b : V3 K) : V3 K :=
  ⟨a.y * b.z - a.z * b.y, a.z * b.x - a.x * b.z, a.x * b.y - a.y * b.x⟩

@[simp] theorem V3.add_x (a b : V3 K) : (a + b).x = a.x + b.x := rfl
@[simp] theorem V3.add_y (a b : V3 K) : (a + b).y = a.y + b.y := rfl
@[simp] theorem V3.add_z (a b : V3 K) : (a + b).z = a.z + b.z := rfl
@[simp] theorem V3.sub_x (a b : V3 K) : (a - b).x = a.x - b.x := rfl
@[simp] theorem V3.sub_y (a b : V3 K) : (a - b).y = a.y - b.y := rfl
@[simp] theorem V3.sub_z (a b : V3 K) : (a - b).z = a.z - b.z := rfl
@[simp] theorem V3.scale_x (c : K) (a : V3 K) : (V3.scale c a).x = c * a.x := rfl
@[simp] theorem V3.scale_y (c : K) (a : V3 K) : (V3.scale c a).y = c * a.y := rfl
@[simp] theorem V3.scale_z (c : K) (a : V3 K) : (V3.scale c a).z = c * a.z := rfl

/-- `IntersectionState`, `queso/includes/core_definitions.hpp` L119. -/
inductive IState | inside | outside | trimmed
  deriving DecidableEq, Repr

end QuESo
