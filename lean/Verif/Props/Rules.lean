import Verif.Proofs.RuleCerts.Gauss
import Verif.Proofs.RuleCerts.Optimal2
import Verif.Proofs.RuleCerts.Optimal3
import Verif.Proofs.RuleCerts.Optimal4
import Verif.Proofs.RuleCerts.Reduced12
import Verif.Proofs.RuleCerts.Reduced13
import Verif.Proofs.RuleCerts.Reduced14
import Verif.Proofs.RuleCerts.Reduced22
import Verif.Proofs.RuleCerts.Reduced23
import Verif.Proofs.RuleCerts.Reduced24
import Verif.Proofs.RuleTensor
import Verif.Spec.Octree

/-!
# Properties of the quadrature rules

* C44: which accepted settings reach outside the tables,
* C66: the generalized Gauss rules integrate all splines of their space, for every number of knot spans,
* C67: the Gauss rules integrate all polynomials up to their degree, in one dimension and on an element.

The tables are decimal numbers; the bounds `10 ^ (-12)` are those of their rounding.
-/
namespace QuESo.Rules
open QuESo.Spec Set

/-! ## C66 -/

/-- **C66** `GGQ_Optimal`: for every degree 2 to 4 and every number `e ≥ 1` of knot spans the factory returns a rule
with half as many points as the spline space of degree `2 * degree` and continuity `degree - 2` has dimensions (rounded
up), with increasing positions inside the interval and positive weights, that integrates every spline of this space
with an error below `10 ^ (-12)` of its largest value. -/
theorem C66_optimal {degree e : ℕ} (h1 : 2 ≤ degree) (h2 : degree ≤ 4) (he : 1 ≤ e) :
    ∃ rule, getGGQ degree e .ggqOptimal = .ok rule ∧
      rule.length = (2 * degree + 1 + (e - 1) * (2 * degree - (degree - 2)) + 1) / 2 ∧ Proper rule ∧
      ∀ (f : ℝ → ℝ) (M : ℝ), IsSpline (2 * degree) (degree - 2) e f → (∀ x ∈ Icc (0 : ℝ) 1, |f x| ≤ M) →
        IntegratesUpTo (1 / 10 ^ 12 * M) rule f := by
  interval_cases degree
  · exact good_Optimal_2 e he
  · exact good_Optimal_3 e he
  · exact good_Optimal_4 e he

/-- **C66** `GGQ_Reduced1`: the same for splines of degree `2 * degree - 1`. -/
theorem C66_reduced1 {degree e : ℕ} (h1 : 2 ≤ degree) (h2 : degree ≤ 4) (he : 1 ≤ e) :
    ∃ rule, getGGQ degree e .ggqReduced1 = .ok rule ∧
      rule.length = (2 * degree - 1 + 1 + (e - 1) * (2 * degree - 1 - (degree - 2)) + 1) / 2 ∧ Proper rule ∧
      ∀ (f : ℝ → ℝ) (M : ℝ), IsSpline (2 * degree - 1) (degree - 2) e f → (∀ x ∈ Icc (0 : ℝ) 1, |f x| ≤ M) →
        IntegratesUpTo (1 / 10 ^ 12 * M) rule f := by
  interval_cases degree
  · exact good_Reduced1_2 e he
  · exact good_Reduced1_3 e he
  · exact good_Reduced1_4 e he

/-- **C66** `GGQ_Reduced2`: the same for splines of degree `2 * degree - 2`. -/
theorem C66_reduced2 {degree e : ℕ} (h1 : 2 ≤ degree) (h2 : degree ≤ 4) (he : 1 ≤ e) :
    ∃ rule, getGGQ degree e .ggqReduced2 = .ok rule ∧
      rule.length = (2 * degree - 2 + 1 + (e - 1) * (2 * degree - 2 - (degree - 2)) + 1) / 2 ∧ Proper rule ∧
      ∀ (f : ℝ → ℝ) (M : ℝ), IsSpline (2 * degree - 2) (degree - 2) e f → (∀ x ∈ Icc (0 : ℝ) 1, |f x| ≤ M) →
        IntegratesUpTo (1 / 10 ^ 12 * M) rule f := by
  interval_cases degree
  · exact good_Reduced2_2 e he
  · exact good_Reduced2_3 e he
  · exact good_Reduced2_4 e he

/-- A hat is a spline with two spans that is no polynomial: the hypotheses of C66 are met by more than polynomials. -/
example : IsSpline 4 0 2 (fun x => |x - 1 / 2|) := by
  refine ⟨?_, fun k hk => ?_⟩
  · simp only [Nat.cast_zero]
    rw [contDiffOn_zero]
    fun_prop
  · interval_cases k
    · refine ⟨Polynomial.C (1 / 2) - Polynomial.X, ?_, fun x hx => ?_⟩
      · exact (Polynomial.natDegree_sub_le _ _).trans (by simp)
      · have := hx.2
        norm_num at this
        simp only [Polynomial.eval_sub, Polynomial.eval_C, Polynomial.eval_X]
        rw [abs_of_nonpos (by linarith)]; ring
    · refine ⟨Polynomial.X - Polynomial.C (1 / 2), ?_, fun x hx => ?_⟩
      · exact (Polynomial.natDegree_sub_le _ _).trans (by simp)
      · have := hx.1
        norm_num at this
        simp only [Polynomial.eval_sub, Polynomial.eval_C, Polynomial.eval_X]
        rw [abs_of_nonneg (by linarith)]

/-- Degree 2 and two spans: a space of dimension nine and a rule with five points. -/
example : ∃ rule, getGGQ 2 2 .ggqOptimal = .ok rule ∧ rule.length = 5 := by
  obtain ⟨rule, h, hl, _⟩ := C66_optimal (degree := 2) (e := 2) le_rfl (by norm_num) (by norm_num)
  exact ⟨rule, h, by simpa using hl⟩

/-! ## C67 -/

/-- By how much the method reduces the number of points per direction. -/
def reduction : Method → ℕ
  | .gaussReduced1 => 1
  | .gaussReduced2 => 2
  | _ => 0

theorem getGauss_eq {method : Method} (hm : isGGQ method = false) (order : ℕ) :
    getGauss order method = (entry Tables.gaussLegendre order (reduction method)).map (ofTable gaussScale) := by
  cases method <;> simp_all [getGauss, reduction, isGGQ]

/-- **C67** Every Gauss rule of the table (`order + 1` points, one or two less for the reduced methods) has increasing
positions inside the interval, positive weights, and integrates polynomials of degree twice the number of points minus
one with an error below `10 ^ (-12)` of their largest value. -/
theorem C67_one_dimension {method : Method} (hm : isGGQ method = false) {order : ℕ} (h1 : reduction method ≤ order)
    (h2 : order < 10 + reduction method) :
    ∃ rule, getGauss order method = .ok rule ∧ rule.length = order - reduction method + 1 ∧ Proper rule ∧
      ∀ (g : ℝ → ℝ) (M : ℝ), IsPoly (2 * rule.length - 1) g → (∀ x ∈ Icc (0 : ℝ) 1, |g x| ≤ M) →
        IntegratesUpTo (1 / 10 ^ 12 * M) rule g := by
  obtain ⟨row, hr, hg⟩ := gauss_good (k := order - reduction method) (by omega)
  have hlen : (ofTable gaussScale row).length = order - reduction method + 1 := by rw [hg.1]; omega
  refine ⟨ofTable gaussScale row, ?_, hlen, hg.2.1, fun g M hp hM => ?_⟩
  · rw [getGauss_eq hm, entry, if_neg (by omega), hr]; rfl
  · rw [hlen, show 2 * (order - reduction method + 1) - 1 = 2 * (order - reduction method) + 1 by omega] at hp
    obtain ⟨q, hq, he⟩ := hp
    have : IsSpline (2 * (order - reduction method) + 1) 0 1 g := by
      refine ⟨?_, fun k _ => ⟨q, hq, fun x _ => he x⟩⟩
      rw [show g = fun x => q.eval x from funext he]
      have := (Polynomial.contDiff_aeval (𝕜 := ℝ) q ((0 : ℕ) : ℕ∞))
      simpa using this.contDiffOn
    exact hg.2.2 g M this hM

/-- The value of integration points for a function. -/
noncomputable def pointSum (pts : List (Mapping.VolPoint ℚ)) (f : ℝ → ℝ → ℝ → ℝ) : ℝ :=
  (pts.map fun q => (q.weight : ℝ) * f q.pos.x q.pos.y q.pos.z).sum

theorem sum_flatMap {α β : Type*} (l : List α) (g : α → List β) (h : β → ℝ) :
    ((l.flatMap g).map h).sum = (l.map fun a => ((g a).map h).sum).sum := by
  induction l with
  | nil => rfl
  | cons a t ih => simp [ih]

theorem pointSum_assemble (ru rv rw : Rule) (b : Box ℚ) (hb : OrderedBox b) (f : ℝ → ℝ → ℝ → ℝ) :
    pointSum (Quad.assembleIPs ru rv rw b) f =
      quadOn ru b.lower.x ((b.upper.x : ℝ) - b.lower.x) (fun x => quadOn rv b.lower.y ((b.upper.y : ℝ) - b.lower.y)
        fun y => quadOn rw b.lower.z ((b.upper.z : ℝ) - b.lower.z) fun z => f x y z) := by
  obtain ⟨hx, hy, hz⟩ := hb
  unfold pointSum Quad.assembleIPs quadOn
  rw [abs_of_nonneg (sub_nonneg.mpr hx), abs_of_nonneg (sub_nonneg.mpr hy), abs_of_nonneg (sub_nonneg.mpr hz)]
  rw [sum_flatMap]
  congr 1
  refine List.map_congr_left fun u _ => ?_
  rw [sum_flatMap, ← List.sum_map_mul_left]
  congr 1
  refine List.map_congr_left fun v _ => ?_
  rw [← List.sum_map_mul_left, ← List.sum_map_mul_left, List.map_map]
  congr 1
  refine List.map_congr_left fun w _ => ?_
  simp only [Function.comp_apply, Quad.tensorPoint]
  push_cast
  ring

/-- **C67** The integration points of an element (tensor product over its box) integrate every function that is a
polynomial of the supported degree in each variable, with an error below `4 * 10 ^ (-12)` of the volume times its
largest value. -/
theorem C67_element {method : Method} (hm : isGGQ method = false) {order : V3 ℕ}
    (hx : reduction method ≤ order.x ∧ order.x < 10 + reduction method)
    (hy : reduction method ≤ order.y ∧ order.y < 10 + reduction method)
    (hz : reduction method ≤ order.z ∧ order.z < 10 + reduction method) {b : Box ℚ} (hb : OrderedBox b) :
    ∃ pts, elementRule order method b = .ok pts ∧
      pts.length = (order.x - reduction method + 1) * (order.y - reduction method + 1) * (order.z - reduction method + 1) ∧
      ∀ (f : ℝ → ℝ → ℝ → ℝ) (M : ℝ), TriPoly (2 * (order.x - reduction method) + 1) (2 * (order.y - reduction method) + 1)
          (2 * (order.z - reduction method) + 1) f →
        (∀ x ∈ Icc (b.lower.x : ℝ) b.upper.x, ∀ y ∈ Icc (b.lower.y : ℝ) b.upper.y,
          ∀ z ∈ Icc (b.lower.z : ℝ) b.upper.z, |f x y z| ≤ M) →
        |pointSum pts f - ∫ x in (b.lower.x : ℝ)..b.upper.x, ∫ y in (b.lower.y : ℝ)..b.upper.y,
            ∫ z in (b.lower.z : ℝ)..b.upper.z, f x y z| ≤
          4 / 10 ^ 12 * (((b.upper.x : ℝ) - b.lower.x) * ((b.upper.y : ℝ) - b.lower.y) * ((b.upper.z : ℝ) - b.lower.z) * M) := by
  have key : ∀ k, reduction method ≤ k ∧ k < 10 + reduction method → ∃ rule, getGauss k method = .ok rule ∧
      GoodRule (2 * (k - reduction method) + 1) 0 1 rule := by
    intro k hk
    obtain ⟨row, hr, hg⟩ := gauss_good (k := k - reduction method) (by omega)
    refine ⟨_, ?_, hg⟩
    rw [getGauss_eq hm, entry, if_neg (by omega), hr]; rfl
  obtain ⟨ru, eu, gu⟩ := key _ hx
  obtain ⟨rv, ev, gv⟩ := key _ hy
  obtain ⟨rw, ew, gw⟩ := key _ hz
  refine ⟨Quad.assembleIPs ru rv rw b, by simp [elementRule, eu, ev, ew], ?_, fun f M hf hM => ?_⟩
  · have l1 : ∀ {k} {rule : Rule}, GoodRule (2 * k + 1) 0 1 rule → rule.length = k + 1 := fun h => by rw [h.1]; omega
    rw [← l1 gu, ← l1 gv, ← l1 gw]
    simp [Quad.assembleIPs, List.length_flatMap, Nat.mul_assoc]
  · rw [pointSum_assemble _ _ _ _ hb]
    obtain ⟨h1, h2, h3⟩ := hb
    exact tensor_approx gu gv gw hf (a := ⟨b.lower.x, b.lower.y, b.lower.z⟩) (b := ⟨b.upper.x, b.upper.y, b.upper.z⟩)
      (Rat.cast_le.mpr h1) (Rat.cast_le.mpr h2) (Rat.cast_le.mpr h3) hM

/-- Non-trivial integrands of C67: `x ^ 5 * y ^ 4 * z ^ 3`, for quadratic elements. -/
example : TriPoly 5 5 5 (fun x y z => x ^ 5 * y ^ 4 * z ^ 3) where
  px y z := by
    have := (IsPoly.pow (d := 5) (i := 5) le_rfl).smul (y ^ 4 * z ^ 3)
    obtain ⟨q, h1, h2⟩ := this
    exact ⟨q, h1, fun x => by rw [← h2]; ring⟩
  py x z := by
    obtain ⟨q, h1, h2⟩ := (IsPoly.pow (d := 5) (i := 4) (by norm_num)).smul (x ^ 5 * z ^ 3)
    exact ⟨q, h1, fun x => by rw [← h2]; ring⟩
  pz x y := by
    obtain ⟨q, h1, h2⟩ := (IsPoly.pow (d := 5) (i := 3) (by norm_num)).smul (x ^ 5 * y ^ 4)
    exact ⟨q, h1, fun x => by rw [← h2]⟩
  cont := by fun_prop

/-! ## C44 -/

/-- What the settings check guarantees. -/
theorem checkSettings_ok {order : V3 ℕ} {method : Method} {grid : Grid} (h : checkSettings order method grid = .ok ()) :
    (1 ≤ order.x ∧ 1 ≤ order.y ∧ 1 ≤ order.z) ∧
    (method = .gaussReduced2 → 2 ≤ order.x ∧ 2 ≤ order.y ∧ 2 ≤ order.z) ∧
    (isGGQ method = true → (2 ≤ order.x ∧ order.x ≤ 4) ∧ (2 ≤ order.y ∧ order.y ≤ 4) ∧ (2 ≤ order.z ∧ order.z ≤ 4)) := by
  unfold checkSettings at h
  simp only [] at h
  repeat' split at h
  all_goals first | (cases h; done) | skip
  rename_i c1 c2 c3 c4 c5
  refine ⟨by omega, fun hm => ?_, fun hg => ?_⟩
  · have : ¬ min (min order.x order.y) order.z < 2 := fun h => c2 ⟨h, hm⟩
    omega
  · have t1 : ¬ max (max order.x order.y) order.z > 4 := fun h => c3 ⟨hg, h⟩
    have t2 : ¬ min (min order.x order.y) order.z < 2 := fun h => c5 ⟨hg, h⟩
    omega

/-- **C44** Accepted settings with a generalized Gauss method: the factory returns a rule in every direction and for
every number of knot spans; no table is indexed outside its range and no loop fails to end. -/
theorem C44_ggq {order : V3 ℕ} {method : Method} {grid : Grid} (h : checkSettings order method grid = .ok ())
    (hm : isGGQ method = true) {e : ℕ} (he : 1 ≤ e) {k : ℕ} (hk : k = order.x ∨ k = order.y ∨ k = order.z) :
    ∃ rule, getGGQ k e method = .ok rule := by
  obtain ⟨_, _, h3⟩ := checkSettings_ok h
  have := h3 hm
  have hk2 : 2 ≤ k ∧ k ≤ 4 := by rcases hk with rfl | rfl | rfl <;> omega
  cases method <;> simp [isGGQ] at hm
  · obtain ⟨r, hr, _⟩ := C66_optimal hk2.1 hk2.2 he; exact ⟨r, hr⟩
  · obtain ⟨r, hr, _⟩ := C66_reduced1 hk2.1 hk2.2 he; exact ⟨r, hr⟩
  · obtain ⟨r, hr, _⟩ := C66_reduced2 hk2.1 hk2.2 he; exact ⟨r, hr⟩

/-- **C44** Accepted settings with a Gauss method: the table is never indexed below its first entry, that is, the factory
returns a rule except for orders above the end of the table. -/
theorem C44_gauss {order : V3 ℕ} {method : Method} {grid : Grid} (h : checkSettings order method grid = .ok ())
    (hm : isGGQ method = false) {k : ℕ} (hk : k = order.x ∨ k = order.y ∨ k = order.z) :
    reduction method ≤ k ∧ ((∃ rule, getGauss k method = .ok rule) ↔ k < 10 + reduction method) ∧
      (10 + reduction method ≤ k → getGauss k method = .error .ub) := by
  obtain ⟨h1, h2, _⟩ := checkSettings_ok h
  have hr : reduction method ≤ k := by
    cases method <;> simp only [reduction] <;> simp [isGGQ] at hm
    · omega
    · rcases hk with rfl | rfl | rfl <;> omega
    · have := h2 rfl; rcases hk with rfl | rfl | rfl <;> omega
  have hub : 10 + reduction method ≤ k → getGauss k method = .error .ub := by
    intro hlt
    rw [getGauss_eq hm, entry, if_neg (by omega), List.getElem?_eq_none (by
      rw [show Tables.gaussLegendre.length = 10 from rfl]; omega)]
    rfl
  refine ⟨hr, ⟨fun ⟨r, h⟩ => ?_, fun hlt => ?_⟩, hub⟩
  · by_contra hc
    rw [hub (by omega)] at h
    exact absurd h (by simp)
  · obtain ⟨rule, h, _⟩ := C67_one_dimension hm hr hlt
    exact ⟨rule, h⟩

/-- **C44** The check accepts orders for which the Gauss table is read behind its end: order 10 with the method
`Gauss`. -/
theorem C44_upper_bound_not_checked (grid : Grid) :
    checkSettings ⟨10, 10, 10⟩ .gauss grid = .ok () ∧ getGauss 10 .gauss = .error .ub := by
  constructor
  · cases grid <;> decide
  · rfl

/-- **C44** With zero knot spans the table of precomputed rules is read before its begin. -/
theorem C44_zero_spans {degree : ℕ} (h1 : 2 ≤ degree) (h2 : degree ≤ 4) : getGGQ degree 0 .ggqOptimal = .error .ub := by
  interval_cases degree <;> decide +kernel

/-- Accepted settings exist for all six methods. -/
example : ∀ m, checkSettings ⟨2, 3, 4⟩ m .bSpline = .ok () := by
  intro m; cases m <;> decide

end QuESo.Rules
