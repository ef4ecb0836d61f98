import Verif.Model.Tables.Gauss
import Verif.Model.Tables.Optimal
import Verif.Model.Tables.Reduced1
import Verif.Model.Tables.Reduced2
import Verif.Model.SingleElement
import Mathlib.Algebra.Order.Ring.Rat
import Mathlib.Algebra.Field.Rat

/-!
# Model of the one-dimensional rules

`queso/quadrature/integration_points_1d/integration_points_factory_1d.cpp` and the tables next to it, and the guard
`queso/utilities/check_dictionary_utilities.hpp`.  Numbers are exact rationals.  Sizes and indices are natural numbers
without overflow; where an unsigned difference would wrap around it is only used as an index of a table, which is then
undefined behaviour.
-/
namespace QuESo.Rules

/-- What can go wrong: an exception, undefined behaviour (an access outside a vector), or a loop that does not end. -/
inductive Fault | error | ub | diverges
  deriving DecidableEq, Repr

/-- `IntegrationMethod`, core_definitions.hpp L98. -/
inductive Method | gauss | gaussReduced1 | gaussReduced2 | ggqOptimal | ggqReduced1 | ggqReduced2
  deriving DecidableEq, Repr

/-- An entry of a rule: position and weight (`std::array<double, 2>`). -/
abbrev Pt := ℚ × ℚ

/-- `std::vector<std::array<double, 2>>` -/
abbrev Rule := List Pt

/-- A row of a table, as decimal numbers. -/
def ofTable (scale : Nat) (l : List (Int × Int)) : Rule := l.map fun q => ((q.1 : ℚ) / scale, (q.2 : ℚ) / scale)

/-- The scale of `mGaussLegendrePoints`. -/
def gaussScale : Nat := 10 ^ 18

/-- The scale of the other tables. -/
def ggqScale : Nat := 10 ^ 16

/-- `table[i - k]` for an unsigned `i`: below `k` the index wraps around. -/
def entry {β : Type _} (table : List β) (i k : Nat) : Except Fault β :=
  if i < k then .error .ub else match table[i - k]? with
    | none => .error .ub
    | some x => .ok x

/-- `GetGauss`, integration_points_factory_1d.cpp L125-137. -/
def getGauss (degree : Nat) : Method → Except Fault Rule
  | .gauss => (entry Tables.gaussLegendre degree 0).map (ofTable gaussScale)
  | .gaussReduced1 => (entry Tables.gaussLegendre degree 1).map (ofTable gaussScale)
  | .gaussReduced2 => (entry Tables.gaussLegendre degree 2).map (ofTable gaussScale)
  | _ => .error .error

/-- `GetSpaceDimension`, integration_points_factory_1d.cpp L139-151: degree and continuity.  Below degree 2 the
differences wrap around in the code; the values are then compared with constants only (none of which they equal) before
the table is indexed with `degree - 2`, which is undefined behaviour here as well. -/
def spaceDimension (degree : Nat) : Method → Except Fault (Nat × Nat)
  | .ggqOptimal => .ok (2 * degree, degree - 2)
  | .ggqReduced1 => .ok (2 * degree - 1, degree - 2)
  | .ggqReduced2 => .ok (2 * degree - 2, degree - 2)
  | _ => .error .error

/-- `n`, integration_points_factory_1d.cpp L39 and L161 (for `e = 0` the product is `-(p - r)` modulo the word size). -/
def numDofs (p r e : Nat) : Nat := ((p + 1 : Int) * 2 + (e - 1) * (p - r) - p - 1).toNat

/-- `m = ceil(n / 2)`, integration_points_factory_1d.cpp L40 and L162. -/
def numPoints (n : Nat) : Nat := (n + 1) / 2

/-- A base rule `{boundary, internal, center}`. -/
abbrev Base := List (List (Int × Int))

/-- `mBasePointsOptimal`, precomputed_ggq_rules_optimal.cpp L341-354. -/
def basePointsOptimal : List (Base × Base) :=
  [(Tables.S_4_0_base_even, Tables.S_4_0_base_odd), (Tables.S_6_1_base_even, Tables.S_6_1_base_odd),
   (Tables.S_8_2_base_even, Tables.S_8_2_base_odd)]

/-- `mBasePointsReduced1`, precomputed_ggq_rules_reduced1.cpp L249-262. -/
def basePointsReduced1 : List (Base × Base) :=
  [(Tables.S_3_0_base_even, Tables.S_3_0_base_odd), (Tables.S_5_1_base_even, Tables.S_5_1_base_odd),
   (Tables.S_7_2_base_even, Tables.S_7_2_base_odd)]

/-- `mBasePointsReduced2`, precomputed_ggq_rules_reduced2.cpp L349-362. -/
def basePointsReduced2 : List (Base × Base) :=
  [(Tables.S_2_0_base_even, Tables.S_2_0_base_odd), (Tables.S_4_1_base_even, Tables.S_4_1_base_odd),
   (Tables.S_6_2_base_even, Tables.S_6_2_base_odd)]

/-- `mPrecomputedPointsOptimal`, precomputed_ggq_rules_optimal.cpp L4812-4816. -/
def precomputedOptimal : List (List (List (Int × Int))) :=
  [Tables.S_4_0_precomputed, Tables.S_6_1_precomputed, Tables.S_8_2_precomputed]

/-- `mPrecomputedPointsReduced1`, precomputed_ggq_rules_reduced1.cpp L3501-3505. -/
def precomputedReduced1 : List (List (List (Int × Int))) :=
  [Tables.S_3_0_precomputed, Tables.S_5_1_precomputed, Tables.S_7_2_precomputed]

/-- `mPrecomputedPointsReduced2`, precomputed_ggq_rules_reduced2.cpp L3718-3722. -/
def precomputedReduced2 : List (List (List (Int × Int))) :=
  [Tables.S_2_0_precomputed, Tables.S_4_1_precomputed, Tables.S_6_2_precomputed]

/-- `table[degree - 2][m % 2]` -/
def baseEntry (table : List (Base × Base)) (degree m : Nat) : Except Fault Base :=
  (entry table degree 2).map fun b => if m % 2 = 0 then b.1 else b.2

/-- `GetGGQBasePoints`, integration_points_factory_1d.cpp L153-210. -/
def basePoints (degree e : Nat) (method : Method) : Except Fault Base :=
  match spaceDimension degree method with
  | .error f => .error f
  | .ok (p, r) =>
    let m := numPoints (numDofs p r e)
    if p = 4 ∧ r = 0 then .ok (if e % 2 = 0 then Tables.S_4_0_base_even else Tables.S_4_0_base_odd)
    else if p = 6 ∧ r = 2 then .ok (if e % 2 = 0 then Tables.S_6_2_base_even else Tables.S_6_2_base_odd)
    else if p = 4 ∧ r = 1 then
      if e % 2 = 0 then baseEntry basePointsReduced2 degree m
      else if m % 2 = 1 then .ok Tables.S_4_1_base_odd else .ok Tables.S_4_1_base_even_2
    else match method with
      | .ggqOptimal => baseEntry basePointsOptimal degree m
      | .ggqReduced1 => baseEntry basePointsReduced1 degree m
      | .ggqReduced2 => baseEntry basePointsReduced2 degree m
      | _ => .error .error

/-- `copy_n(src, src.size(), pts.begin() + i)` -/
def copyTo (src : Rule) (i : Nat) (pts : Rule) : Except Fault Rule :=
  if i + src.length ≤ pts.length then .ok (pts.take i ++ src ++ pts.drop (i + src.length)) else .error .ub

/-- `for_each` that moves the positions of a range; here applied to the source before it is copied. -/
def shift (d : ℚ) (l : Rule) : Rule := l.map fun q => (q.1 + d, q.2)

/-- The loop `while( ii < z )`, integration_points_factory_1d.cpp L58-65 and L92-99, started with `ii`, `left`;
`fuel` bounds the number of iterations (it diverges in the code if the internal rule is empty). -/
def internalLoop (internal : Rule) (right z : Nat) : Nat → (ii left : Nat) → Rule → Except Fault Rule
  | fuel, ii, left, pts =>
    if ii < z then
      match fuel with
      | 0 => .error .diverges
      | fuel + 1 =>
        match copyTo (shift left internal) ii pts with
        | .error f => .error f
        | .ok pts => internalLoop internal right z fuel (ii + internal.length) (left + right) pts
    else .ok pts

/-- `reverse_copy(pts.begin(), pts.begin() + last, pts.begin() + d)` as the loop of the standard library: the
elements are read from behind and written from `d` on, in the same vector (for an odd number of points the two ranges
share one element, which is copied to itself). -/
def reverseCopy : (last d : Nat) → Rule → Except Fault Rule
  | 0, _, pts => .ok pts
  | last + 1, d, pts =>
    match pts[last]? with
    | none => .error .ub
    | some v => if d < pts.length then reverseCopy last (d + 1) (pts.set d v) else .error .ub

/-- `ceil` of a position, as a number of spans. -/
def ceilSpans (x : ℚ) : Nat := x.ceil.toNat

/-- The points before scaling: integration_points_factory_1d.cpp L52-68 (`center = []`) and L86-105.  `mid` are the
center points, moved to the middle of the `e` spans; `z` is `ceil(m / 2)`. -/
def build (boundary internal center : Rule) (e m : Nat) : Except Fault Rule :=
  let z := (m + 1) / 2
  match boundary.getLast?, internal.getLast? with
  | some b, some i =>
    match copyTo boundary 0 (List.replicate m (0, 0)) with
    | .error f => .error f
    | .ok pts =>
      match internalLoop internal (ceilSpans i.1) z m boundary.length (ceilSpans b.1) pts with
      | .error f => .error f
      | .ok pts =>
        if z < center.length then .error .ub
        else match copyTo (shift ((e : ℚ) / 2) center) (z - center.length) pts with
          | .error f => .error f
          | .ok pts =>
            if m < z then .error .ub
            else match reverseCopy z (m - z) pts with
              | .error f => .error f
              | .ok pts => .ok (pts.take (m - z) ++ (pts.drop (m - z)).map fun q => ((e : ℚ) - q.1, q.2))
  | _, _ => .error .ub

/-- The precomputed rule, integration_points_factory_1d.cpp L71-81 and L108-118. -/
def precomputed (degree e : Nat) (method : Method) : Except Fault Rule :=
  match method with
  | .ggqOptimal => ((entry precomputedOptimal degree 2).bind (entry · e 1)).map (ofTable ggqScale)
  | .ggqReduced1 => ((entry precomputedReduced1 degree 2).bind (entry · e 1)).map (ofTable ggqScale)
  | .ggqReduced2 => ((entry precomputedReduced2 degree 2).bind (entry · e 1)).map (ofTable ggqScale)
  | _ => .error .error

/-- `GetGGQ`, integration_points_factory_1d.cpp L29-123. -/
def getGGQ (degree e : Nat) (method : Method) : Except Fault Rule :=
  match spaceDimension degree method with
  | .error f => .error f
  | .ok (p, r) =>
    let n := numDofs p r e
    let m := numPoints n
    match basePoints degree e method with
    | .error f => .error f
    | .ok [b0, b1, b2] =>
      let scale (l : Rule) : Rule := l.map fun q => (0 + (1 - 0) / (e : ℚ) * q.1, q.2 * ((1 - 0) / (e : ℚ)))
      if 2 * m = n then
        if m > 2 * b0.length then
          (build (ofTable ggqScale b0) (ofTable ggqScale b1) [] e m).map scale
        else precomputed degree e method
      else if m > 2 * (b0.length + b2.length) - 1 then
        (build (ofTable ggqScale b0) (ofTable ggqScale b1) (ofTable ggqScale b2) e m).map scale
      else precomputed degree e method
    | .ok _ => .error .ub

/-- `GridType`, core_definitions.hpp L134. -/
inductive Grid | bSpline | hexahedral
  deriving DecidableEq, Repr

/-- `static_cast<int>(integration_method) >= 3`, check_dictionary_utilities.hpp L59. -/
def isGGQ : Method → Bool
  | .ggqOptimal | .ggqReduced1 | .ggqReduced2 => true
  | _ => false

/-- `CheckSettings`, check_dictionary_utilities.hpp L28-68, from the values read on (`CheckRequired` and the reading of
the values are modelled in `Model/Settings.lean`); the messages that are only printed are left out. -/
def checkSettings (order : V3 Nat) (method : Method) (grid : Grid) : Except Fault Unit :=
  let minOrder := min (min order.x order.y) order.z
  let maxOrder := max (max order.x order.y) order.z
  let ggq : Bool := isGGQ method
  if minOrder < 1 then .error .error
  else if minOrder < 2 ∧ method = .gaussReduced2 then .error .error
  else if ggq ∧ maxOrder > 4 then .error .error
  else if ggq ∧ grid ≠ .bSpline then .error .error
  else if ggq ∧ minOrder < 2 then .error .error
  else .ok ()

/-- `QuadratureSingleElement::AssembleIPs`, single_element.hpp L72-102, with the rules of the factory. -/
def elementRule (order : V3 Nat) (method : Method) (b : Box ℚ) : Except Fault (List (Mapping.VolPoint ℚ)) :=
  match getGauss order.x method, getGauss order.y method, getGauss order.z method with
  | .ok ru, .ok rv, .ok rw => .ok (Quad.assembleIPs ru rv rw b)
  | .error f, _, _ => .error f
  | _, .error f, _ => .error f
  | _, _, .error f => .error f

end QuESo.Rules
