import Verif.Spec.Integral
import Verif.Model.Vector
import Mathlib.MeasureTheory.Integral.Prod
import Mathlib.MeasureTheory.Integral.IntervalIntegral.FundThmCalculus
import Mathlib.MeasureTheory.Integral.DominatedConvergence
import Mathlib.Analysis.Calculus.ContDiff.Basic
import Mathlib.Analysis.Calculus.Deriv.Mul
import Mathlib.Analysis.Calculus.Deriv.Prod
import Mathlib.Analysis.Calculus.Deriv.Comp
import Mathlib.Tactic.LinearCombination

/-!
# The divergence theorem for triangulated surfaces
-/
namespace QuESo.Spec
open MeasureTheory Set

/-- Integrals over a triangle do not depend on the order of integration. -/
theorem tri_swap {g : ℝ → ℝ → ℝ} (hg : Continuous fun p : ℝ × ℝ => g p.1 p.2) {a : ℝ} (ha : 0 ≤ a) :
    (∫ x in (0 : ℝ)..a, ∫ y in (0 : ℝ)..(a - x), g x y) = ∫ y in (0 : ℝ)..a, ∫ x in (0 : ℝ)..(a - y), g x y := by
  let T : Set (ℝ × ℝ) := {p | 0 < p.1 ∧ 0 < p.2 ∧ p.1 + p.2 ≤ a}
  have hT : MeasurableSet T := by
    apply MeasurableSet.inter (measurableSet_lt measurable_const measurable_fst)
    exact MeasurableSet.inter (measurableSet_lt measurable_const measurable_snd)
      (measurableSet_le (measurable_fst.add measurable_snd) measurable_const)
  have key : ∀ (h : ℝ → ℝ → ℝ), (∫ x in (0 : ℝ)..a, ∫ y in (0 : ℝ)..(a - x), h x y) =
      ∫ x, ∫ y, T.indicator (fun p => h p.1 p.2) (x, y) := by
    intro h
    rw [intervalIntegral.integral_of_le ha, ← integral_indicator measurableSet_Ioc]
    congr 1; ext x
    by_cases hx : x ∈ Ioc 0 a
    · rw [indicator_of_mem hx, intervalIntegral.integral_of_le (by linarith [hx.2]), ← integral_indicator measurableSet_Ioc]
      congr 1; ext y
      by_cases hy : y ∈ Ioc 0 (a - x)
      · rw [indicator_of_mem hy, indicator_of_mem]
        exact ⟨hx.1, hy.1, by have := hy.2; show x + y ≤ a; linarith⟩
      · rw [indicator_of_notMem hy, indicator_of_notMem]
        rintro ⟨h1, h2, h3⟩
        exact hy ⟨h2, by have : x + y ≤ a := h3; linarith⟩
    · rw [indicator_of_notMem hx]
      symm
      apply integral_eq_zero_of_ae
      filter_upwards with y
      rw [indicator_of_notMem]; rfl
      rintro ⟨h1, h2, h3⟩
      exact hx ⟨h1, by have : x + y ≤ a := h3; have : 0 < y := h2; linarith⟩
  rw [key, key fun y x => g x y, integral_integral_swap]
  · congr 1; ext y; congr 1; ext x
    simp only [indicator]
    congr 1
    simp only [T, mem_setOf_eq, eq_iff_iff]
    constructor <;> rintro ⟨h1, h2, h3⟩ <;> exact ⟨h2, h1, by linarith⟩
  · have : (Function.uncurry fun x y => T.indicator (fun p => g p.1 p.2) (x, y)) = T.indicator fun p => g p.1 p.2 := by
      ext ⟨x, y⟩; rfl
    rw [this, integrable_indicator_iff hT]
    apply (hg.continuousOn.integrableOn_compact (K := Icc 0 a ×ˢ Icc 0 a) (isCompact_Icc.prod isCompact_Icc)).mono_set
    rintro ⟨x, y⟩ ⟨h1, h2, h3⟩
    dsimp only at h1 h2 h3
    exact ⟨⟨h1.le, by linarith⟩, ⟨h2.le, by linarith⟩⟩

theorem tri_sym {g : ℝ → ℝ → ℝ} (hg : Continuous fun p : ℝ × ℝ => g p.1 p.2) :
    unitTriangle g = unitTriangle fun x y => g y x := tri_swap hg zero_le_one

theorem tri_reflect (g : ℝ → ℝ → ℝ) : unitTriangle g = unitTriangle fun x y => g x (1 - x - y) := by
  unfold unitTriangle
  congr 1; ext x
  rw [intervalIntegral.integral_comp_sub_left (fun y => g x y) (1 - x)]
  simp

theorem tri_congr {g h : ℝ → ℝ → ℝ} (e : ∀ x y, g x y = h x y) : unitTriangle g = unitTriangle h := by
  have : g = h := by ext x y; exact e x y
  rw [this]

/-- Integrating over the third face in terms of the first two coordinates. -/
theorem tri_rotate {h : ℝ → ℝ → ℝ → ℝ} (hh : Continuous fun p : ℝ × ℝ × ℝ => h p.1 p.2.1 p.2.2) :
    (unitTriangle fun x y => h x y (1 - x - y)) = (unitTriangle fun s t => h (1 - s - t) s t) ∧
    (unitTriangle fun x y => h x (1 - x - y) y) = unitTriangle fun s t => h (1 - s - t) s t := by
  have h2 : (unitTriangle fun x y => h x (1 - x - y) y) = unitTriangle fun s t => h (1 - s - t) s t := by
    rw [tri_sym, tri_reflect, tri_sym]
    · apply tri_congr; intro x y; congr 1 <;> ring
    · have : Continuous fun p : ℝ × ℝ => ((1 - p.1 - p.2, 1 - (1 - p.1 - p.2) - p.1, p.1) : ℝ × ℝ × ℝ) := by fun_prop
      exact hh.comp this
    · have : Continuous fun p : ℝ × ℝ => ((p.1, 1 - p.1 - p.2, p.2) : ℝ × ℝ × ℝ) := by fun_prop
      exact hh.comp this
  refine ⟨?_, h2⟩
  rw [← h2, tri_reflect]
  apply tri_congr; intro x y; congr 1; ring

/-! ### The tetrahedron -/

theorem tet_inner {g : ℝ → ℝ → ℝ → ℝ} (hg : Continuous fun p : ℝ × ℝ × ℝ => g p.1 p.2.1 p.2.2) :
    unitTetrahedron g = unitTetrahedron fun x y z => g x z y := by
  unfold unitTetrahedron
  apply intervalIntegral.integral_congr
  intro x hx
  rw [uIcc_of_le zero_le_one] at hx
  have : Continuous fun p : ℝ × ℝ => ((x, p.1, p.2) : ℝ × ℝ × ℝ) := by fun_prop
  exact tri_swap (g := fun y z => g x y z) (hg.comp this) (by linarith [hx.2])

theorem tet_outer {g : ℝ → ℝ → ℝ → ℝ} (hg : Continuous fun p : ℝ × ℝ × ℝ => g p.1 p.2.1 p.2.2) :
    unitTetrahedron g = unitTetrahedron fun x y z => g y x z := by
  unfold unitTetrahedron
  rw [tri_swap (g := fun x y => ∫ z in (0 : ℝ)..(1 - x - y), g x y z) _ zero_le_one]
  · congr 1; ext y; congr 1; ext x
    rw [sub_right_comm]
  · apply intervalIntegral.continuous_parametric_intervalIntegral_of_continuous (f := fun p : ℝ × ℝ => fun z => g p.1 p.2 z)
    · have : Continuous fun p : (ℝ × ℝ) × ℝ => ((p.1.1, p.1.2, p.2) : ℝ × ℝ × ℝ) := by fun_prop
      exact hg.comp this
    · fun_prop

theorem tri_sub {g h : ℝ → ℝ → ℝ} (hg : Continuous fun p : ℝ × ℝ => g p.1 p.2) (hh : Continuous fun p : ℝ × ℝ => h p.1 p.2) :
    (unitTriangle fun x y => g x y - h x y) = unitTriangle g - unitTriangle h := by
  unfold unitTriangle
  have hc : ∀ {k : ℝ → ℝ → ℝ}, Continuous (fun p : ℝ × ℝ => k p.1 p.2) → Continuous fun x => ∫ y in (0 : ℝ)..(1 - x), k x y := by
    intro k hk
    exact intervalIntegral.continuous_parametric_intervalIntegral_of_continuous (f := k) hk (by fun_prop)
  have hx : ∀ {k : ℝ → ℝ → ℝ}, Continuous (fun p : ℝ × ℝ => k p.1 p.2) → ∀ x, Continuous fun y => k x y := by
    intro k hk x
    have : Continuous fun y : ℝ => ((x, y) : ℝ × ℝ) := by fun_prop
    exact hk.comp this
  rw [← intervalIntegral.integral_sub ((hc hg).intervalIntegrable _ _) ((hc hh).intervalIntegrable _ _)]
  congr 1; ext x
  exact intervalIntegral.integral_sub ((hx hg x).intervalIntegrable _ _) ((hx hh x).intervalIntegrable _ _)

theorem tri_add {g h : ℝ → ℝ → ℝ} (hg : Continuous fun p : ℝ × ℝ => g p.1 p.2) (hh : Continuous fun p : ℝ × ℝ => h p.1 p.2) :
    (unitTriangle fun x y => g x y + h x y) = unitTriangle g + unitTriangle h := by
  have hn : Continuous fun p : ℝ × ℝ => (fun x y => g x y + h x y) p.1 p.2 := hg.add hh
  have := tri_sub (g := fun x y => g x y + h x y) hn hh
  simp only [add_sub_cancel_right] at this
  change unitTriangle g = _ at this
  linarith

theorem tri_smul (c : ℝ) (g : ℝ → ℝ → ℝ) : (unitTriangle fun x y => c * g x y) = c * unitTriangle g := by
  unfold unitTriangle
  simp only [intervalIntegral.integral_const_mul]

theorem tet_dz {G G' : ℝ → ℝ → ℝ → ℝ} (hG : Continuous fun p : ℝ × ℝ × ℝ => G p.1 p.2.1 p.2.2)
    (hG' : Continuous fun p : ℝ × ℝ × ℝ => G' p.1 p.2.1 p.2.2) (hd : ∀ x y z, HasDerivAt (fun z => G x y z) (G' x y z) z) :
    unitTetrahedron G' = (unitTriangle fun x y => G x y (1 - x - y)) - unitTriangle fun x y => G x y 0 := by
  rw [← tri_sub]
  · unfold unitTetrahedron unitTriangle
    congr 1; ext x; congr 1; ext y
    apply intervalIntegral.integral_eq_sub_of_hasDerivAt (fun z _ => hd x y z)
    have : Continuous fun z : ℝ => ((x, y, z) : ℝ × ℝ × ℝ) := by fun_prop
    exact (hG'.comp this).intervalIntegrable _ _
  · have : Continuous fun p : ℝ × ℝ => ((p.1, p.2, 1 - p.1 - p.2) : ℝ × ℝ × ℝ) := by fun_prop
    exact hG.comp this
  · have : Continuous fun p : ℝ × ℝ => ((p.1, p.2, 0) : ℝ × ℝ × ℝ) := by fun_prop
    exact hG.comp this

theorem tet_dy {G G' : ℝ → ℝ → ℝ → ℝ} (hG : Continuous fun p : ℝ × ℝ × ℝ => G p.1 p.2.1 p.2.2)
    (hG' : Continuous fun p : ℝ × ℝ × ℝ => G' p.1 p.2.1 p.2.2) (hd : ∀ x y z, HasDerivAt (fun y => G x y z) (G' x y z) y) :
    unitTetrahedron G' = (unitTriangle fun x z => G x (1 - x - z) z) - unitTriangle fun x z => G x 0 z := by
  have hs : Continuous fun p : ℝ × ℝ × ℝ => ((p.1, p.2.2, p.2.1) : ℝ × ℝ × ℝ) := by fun_prop
  rw [tet_inner hG', tet_dz (G := fun x y z => G x z y) (G' := fun x y z => G' x z y) (hG.comp hs) (hG'.comp hs) (fun x y z => hd x z y)]

theorem tet_dx {G G' : ℝ → ℝ → ℝ → ℝ} (hG : Continuous fun p : ℝ × ℝ × ℝ => G p.1 p.2.1 p.2.2)
    (hG' : Continuous fun p : ℝ × ℝ × ℝ => G' p.1 p.2.1 p.2.2) (hd : ∀ x y z, HasDerivAt (fun x => G x y z) (G' x y z) x) :
    unitTetrahedron G' = (unitTriangle fun y z => G (1 - y - z) y z) - unitTriangle fun y z => G 0 y z := by
  have hs : Continuous fun p : ℝ × ℝ × ℝ => ((p.2.1, p.1, p.2.2) : ℝ × ℝ × ℝ) := by fun_prop
  rw [tet_outer hG', tet_dy (G := fun x y z => G y x z) (G' := fun x y z => G' y x z) (hG.comp hs) (hG'.comp hs) (fun x y z => hd y x z)]

theorem tet_add {g h : ℝ → ℝ → ℝ → ℝ} (hg : Continuous fun p : ℝ × ℝ × ℝ => g p.1 p.2.1 p.2.2)
    (hh : Continuous fun p : ℝ × ℝ × ℝ => h p.1 p.2.1 p.2.2) :
    (unitTetrahedron fun x y z => g x y z + h x y z) = unitTetrahedron g + unitTetrahedron h := by
  have hc : ∀ {k : ℝ → ℝ → ℝ → ℝ}, Continuous (fun p : ℝ × ℝ × ℝ => k p.1 p.2.1 p.2.2) →
      Continuous fun p : ℝ × ℝ => ∫ z in (0 : ℝ)..(1 - p.1 - p.2), k p.1 p.2 z := by
    intro k hk
    have : Continuous fun p : (ℝ × ℝ) × ℝ => ((p.1.1, p.1.2, p.2) : ℝ × ℝ × ℝ) := by fun_prop
    exact intervalIntegral.continuous_parametric_intervalIntegral_of_continuous (f := fun p : ℝ × ℝ => fun z => k p.1 p.2 z)
      (hk.comp this) (by fun_prop)
  have := tri_add (g := fun x y => ∫ z in (0 : ℝ)..(1 - x - y), g x y z) (h := fun x y => ∫ z in (0 : ℝ)..(1 - x - y), h x y z)
    (hc hg) (hc hh)
  refine Eq.trans ?_ this
  unfold unitTetrahedron unitTriangle
  congr 1; ext x; congr 1; ext y
  have hz : Continuous fun z : ℝ => ((x, y, z) : ℝ × ℝ × ℝ) := by fun_prop
  exact intervalIntegral.integral_add ((hg.comp hz).intervalIntegrable _ _) ((hh.comp hz).intervalIntegrable _ _)

theorem tet_smul (c : ℝ) (g : ℝ → ℝ → ℝ → ℝ) : (unitTetrahedron fun x y z => c * g x y z) = c * unitTetrahedron g := by
  unfold unitTetrahedron
  simp only [intervalIntegral.integral_const_mul]

/-! ### Derivatives along lines -/

/-- A function of three numbers as a function of a triple. -/
def onTriples (g : V3 ℝ → ℝ) (q : ℝ × ℝ × ℝ) : ℝ := g ⟨q.1, q.2.1, q.2.2⟩

/-- The derivative in direction `d` at `p`. -/
noncomputable def along (g : V3 ℝ → ℝ) (p d : V3 ℝ) : ℝ := fderiv ℝ (onTriples g) (p.x, p.y, p.z) (d.x, d.y, d.z)

theorem along_eq (g : V3 ℝ → ℝ) (p d : V3 ℝ) :
    along g p d = d.x * along g p ⟨1, 0, 0⟩ + d.y * along g p ⟨0, 1, 0⟩ + d.z * along g p ⟨0, 0, 1⟩ := by
  unfold along
  have : ((d.x, d.y, d.z) : ℝ × ℝ × ℝ) = d.x • (1, 0, 0) + d.y • (0, 1, 0) + d.z • (0, 0, 1) := by simp
  rw [this, map_add, map_add, map_smul, map_smul, map_smul]
  simp

theorem hasDerivAt_along {g : V3 ℝ → ℝ} (hg : Smooth g) (p d : V3 ℝ) (t : ℝ) :
    HasDerivAt (fun s => g ⟨p.x + s * d.x, p.y + s * d.y, p.z + s * d.z⟩)
      (along g ⟨p.x + t * d.x, p.y + t * d.y, p.z + t * d.z⟩ d) t := by
  have hf : HasFDerivAt (onTriples g) (fderiv ℝ (onTriples g) (p.x + t * d.x, p.y + t * d.y, p.z + t * d.z))
      (p.x + t * d.x, p.y + t * d.y, p.z + t * d.z) :=
    ((hg.differentiable (by norm_num)) _).hasFDerivAt
  have h1 : ∀ a b : ℝ, HasDerivAt (fun s : ℝ => a + s * b) b t := by
    intro a b
    simpa using ((hasDerivAt_id t).mul_const b).const_add a
  have hc : HasDerivAt (fun s : ℝ => ((p.x + s * d.x, p.y + s * d.y, p.z + s * d.z) : ℝ × ℝ × ℝ)) (d.x, d.y, d.z) t :=
    (h1 _ _).prodMk ((h1 _ _).prodMk (h1 _ _))
  exact hf.comp_hasDerivAt t hc

theorem along_x {g : V3 ℝ → ℝ} (hg : Smooth g) (p : V3 ℝ) : deriv (fun t => g ⟨t, p.y, p.z⟩) p.x = along g p ⟨1, 0, 0⟩ := by
  have := (hasDerivAt_along hg ⟨0, p.y, p.z⟩ ⟨1, 0, 0⟩ p.x).deriv
  simpa using this

theorem along_y {g : V3 ℝ → ℝ} (hg : Smooth g) (p : V3 ℝ) : deriv (fun t => g ⟨p.x, t, p.z⟩) p.y = along g p ⟨0, 1, 0⟩ := by
  have := (hasDerivAt_along hg ⟨p.x, 0, p.z⟩ ⟨0, 1, 0⟩ p.y).deriv
  simpa using this

theorem along_z {g : V3 ℝ → ℝ} (hg : Smooth g) (p : V3 ℝ) : deriv (fun t => g ⟨p.x, p.y, t⟩) p.z = along g p ⟨0, 0, 1⟩ := by
  have := (hasDerivAt_along hg ⟨p.x, p.y, 0⟩ ⟨0, 0, 1⟩ p.z).deriv
  simpa using this

theorem continuous_along {g : V3 ℝ → ℝ} (hg : Smooth g) (d : V3 ℝ) :
    Continuous fun q : ℝ × ℝ × ℝ => along g ⟨q.1, q.2.1, q.2.2⟩ d :=
  (hg.continuous_fderiv (by norm_num)).clm_apply continuous_const

theorem Smooth.continuous {g : V3 ℝ → ℝ} (hg : Smooth g) : Continuous fun q : ℝ × ℝ × ℝ => g ⟨q.1, q.2.1, q.2.2⟩ :=
  ContDiff.continuous hg

/-! ### The divergence theorem -/

/-- The flux through the triangle of `o` and the edge `e`. -/
noncomputable def sideFlux (F : V3 ℝ → V3 ℝ) (o : V3 ℝ) (e : V3 ℝ × V3 ℝ) : ℝ := flux F ⟨o, e.1, e.2, ⟨0, 0, 0⟩⟩

/-- A component of the field that is weighted with constants, on a tetrahedron. -/
noncomputable def weighted (F : V3 ℝ → V3 ℝ) (n o a b c : V3 ℝ) (r s t : ℝ) : ℝ :=
  (F (tetrahedronPoint o a b c r s t)).x * n.x + (F (tetrahedronPoint o a b c r s t)).y * n.y +
    (F (tetrahedronPoint o a b c r s t)).z * n.z

/-- Its derivative in the direction `d`. -/
noncomputable def weighted' (F : V3 ℝ → V3 ℝ) (n d o a b c : V3 ℝ) (r s t : ℝ) : ℝ :=
  along (fun p => (F p).x) (tetrahedronPoint o a b c r s t) d * n.x +
    along (fun p => (F p).y) (tetrahedronPoint o a b c r s t) d * n.y +
    along (fun p => (F p).z) (tetrahedronPoint o a b c r s t) d * n.z

theorem continuous_point (o a b c : V3 ℝ) : Continuous fun p : ℝ × ℝ × ℝ =>
    (((tetrahedronPoint o a b c p.1 p.2.1 p.2.2).x, (tetrahedronPoint o a b c p.1 p.2.1 p.2.2).y,
      (tetrahedronPoint o a b c p.1 p.2.1 p.2.2).z) : ℝ × ℝ × ℝ) := by
  unfold tetrahedronPoint
  fun_prop

theorem continuous_weighted {F : V3 ℝ → V3 ℝ} (hF : SmoothField F) (n o a b c : V3 ℝ) :
    Continuous fun p : ℝ × ℝ × ℝ => weighted F n o a b c p.1 p.2.1 p.2.2 :=
  (((hF.1.continuous.comp (continuous_point o a b c)).mul_const _).add
    ((hF.2.1.continuous.comp (continuous_point o a b c)).mul_const _)).add
    ((hF.2.2.continuous.comp (continuous_point o a b c)).mul_const _)

theorem continuous_weighted' {F : V3 ℝ → V3 ℝ} (hF : SmoothField F) (n d o a b c : V3 ℝ) :
    Continuous fun p : ℝ × ℝ × ℝ => weighted' F n d o a b c p.1 p.2.1 p.2.2 :=
  ((((continuous_along hF.1 d).comp (continuous_point o a b c)).mul_const _).add
    (((continuous_along hF.2.1 d).comp (continuous_point o a b c)).mul_const _)).add
    (((continuous_along hF.2.2 d).comp (continuous_point o a b c)).mul_const _)

theorem weighted_r {F : V3 ℝ → V3 ℝ} (hF : SmoothField F) (n o a b c : V3 ℝ) (r s t : ℝ) :
    HasDerivAt (fun r => weighted F n o a b c r s t) (weighted' F n (a - o) o a b c r s t) r := by
  have key : ∀ {g : V3 ℝ → ℝ}, Smooth g →
      HasDerivAt (fun r => g (tetrahedronPoint o a b c r s t)) (along g (tetrahedronPoint o a b c r s t) (a - o)) r := by
    intro g hg
    have := hasDerivAt_along hg ⟨o.x + s * (b.x - o.x) + t * (c.x - o.x), o.y + s * (b.y - o.y) + t * (c.y - o.y),
      o.z + s * (b.z - o.z) + t * (c.z - o.z)⟩ (a - o) r
    have e : ∀ r, (⟨o.x + s * (b.x - o.x) + t * (c.x - o.x) + r * (a - o).x, o.y + s * (b.y - o.y) + t * (c.y - o.y) + r * (a - o).y,
      o.z + s * (b.z - o.z) + t * (c.z - o.z) + r * (a - o).z⟩ : V3 ℝ) = tetrahedronPoint o a b c r s t := by
      intro r; unfold tetrahedronPoint; simp only [V3.sub_x, V3.sub_y, V3.sub_z]; congr 1 <;> ring
    simp only [e] at this
    exact this
  exact (((key hF.1).mul_const _).add ((key hF.2.1).mul_const _)).add ((key hF.2.2).mul_const _)

theorem weighted_s {F : V3 ℝ → V3 ℝ} (hF : SmoothField F) (n o a b c : V3 ℝ) (r s t : ℝ) :
    HasDerivAt (fun s => weighted F n o a b c r s t) (weighted' F n (b - o) o a b c r s t) s := by
  have e : ∀ r s t, tetrahedronPoint o a b c r s t = tetrahedronPoint o b a c s r t := by
    intro r s t; unfold tetrahedronPoint; congr 1 <;> ring
  have := weighted_r hF n o b a c s r t
  simpa only [weighted, weighted', e] using this

theorem weighted_t {F : V3 ℝ → V3 ℝ} (hF : SmoothField F) (n o a b c : V3 ℝ) (r s t : ℝ) :
    HasDerivAt (fun t => weighted F n o a b c r s t) (weighted' F n (c - o) o a b c r s t) t := by
  have e : ∀ r s t, tetrahedronPoint o a b c r s t = tetrahedronPoint o c a b t r s := by
    intro r s t; unfold tetrahedronPoint; congr 1 <;> ring
  have := weighted_r hF n o c a b t r s
  simpa only [weighted, weighted', e] using this

/-- The flux out of a tetrahedron with three faces at `o`. -/
theorem tetrahedron_divergence {F : V3 ℝ → V3 ℝ} (hF : SmoothField F) (o : V3 ℝ) (t : Tri ℝ) :
    flux F t - ((edgesOf t).map (sideFlux F o)).sum = tetrahedronVolume6 o t.p1 t.p2 t.p3 *
      unitTetrahedron fun r s u => divergence F (tetrahedronPoint o t.p1 t.p2 t.p3 r s u) := by
  obtain ⟨a, b, c, nn⟩ := t
  dsimp only [edgesOf, List.map_cons, List.map_nil, List.sum_cons, List.sum_nil]
  have hdiv : (fun r s u => tetrahedronVolume6 o a b c * divergence F (tetrahedronPoint o a b c r s u)) =
      fun r s u => weighted' F (triangleArea2 o b c) (a - o) o a b c r s u + weighted' F (triangleArea2 o c a) (b - o) o a b c r s u +
        weighted' F (triangleArea2 o a b) (c - o) o a b c r s u := by
    ext r s u
    unfold divergence weighted'
    rw [along_x hF.1, along_y hF.2.1, along_z hF.2.2]
    rw [along_eq _ _ (a - o), along_eq _ _ (b - o), along_eq _ _ (c - o),
      along_eq _ _ (a - o), along_eq _ _ (b - o), along_eq _ _ (c - o),
      along_eq _ _ (a - o), along_eq _ _ (b - o), along_eq _ _ (c - o)]
    simp only [tetrahedronVolume6, triangleArea2, V3.sub_x, V3.sub_y, V3.sub_z]
    ring
  rw [← tet_smul, hdiv, tet_add ((continuous_weighted' hF _ _ o a b c).add (continuous_weighted' hF _ _ o a b c))
    (continuous_weighted' hF _ _ o a b c), tet_add (continuous_weighted' hF _ _ o a b c) (continuous_weighted' hF _ _ o a b c),
    tet_dx (continuous_weighted hF _ o a b c) (continuous_weighted' hF _ _ o a b c) (weighted_r hF _ o a b c),
    tet_dy (continuous_weighted hF _ o a b c) (continuous_weighted' hF _ _ o a b c) (weighted_s hF _ o a b c),
    tet_dz (continuous_weighted hF _ o a b c) (continuous_weighted' hF _ _ o a b c) (weighted_t hF _ o a b c),
    (tri_rotate (continuous_weighted hF (triangleArea2 o a b) o a b c)).1,
    (tri_rotate (continuous_weighted hF (triangleArea2 o c a) o a b c)).2]
  have hc : ∀ (n : V3 ℝ) (f : ℝ × ℝ → ℝ × ℝ × ℝ), Continuous f →
      Continuous fun p : ℝ × ℝ => weighted F n o a b c (f p).1 (f p).2.1 (f p).2.2 :=
    fun n f hf => (continuous_weighted hF n o a b c).comp hf
  have hslant : ∀ n, Continuous fun p : ℝ × ℝ => weighted F n o a b c (1 - p.1 - p.2) p.1 p.2 :=
    fun n => hc n (fun p => (1 - p.1 - p.2, p.1, p.2)) (by fun_prop)
  have h1 : flux F ⟨a, b, c, nn⟩ = (unitTriangle fun s t => weighted F (triangleArea2 o b c) o a b c (1 - s - t) s t) +
      (unitTriangle fun s t => weighted F (triangleArea2 o c a) o a b c (1 - s - t) s t) +
      unitTriangle fun s t => weighted F (triangleArea2 o a b) o a b c (1 - s - t) s t := by
    rw [← tri_add (hslant _) (hslant _), ← tri_add ((hslant _).add (hslant _)) (hslant _)]
    unfold flux
    apply tri_congr
    intro s t
    have : trianglePoint a b c s t = tetrahedronPoint o a b c (1 - s - t) s t := by
      unfold trianglePoint tetrahedronPoint; congr 1 <;> ring
    simp only [weighted, this, triangleArea2]
    ring
  have h2 : sideFlux F o (a, b) = unitTriangle fun x y => weighted F (triangleArea2 o a b) o a b c x y 0 := by
    unfold sideFlux flux
    apply tri_congr
    intro s t
    have : trianglePoint o a b s t = tetrahedronPoint o a b c s t 0 := by
      unfold trianglePoint tetrahedronPoint; congr 1 <;> ring
    simp only [weighted, this]
  have h3 : sideFlux F o (b, c) = unitTriangle fun y z => weighted F (triangleArea2 o b c) o a b c 0 y z := by
    unfold sideFlux flux
    apply tri_congr
    intro s t
    have : trianglePoint o b c s t = tetrahedronPoint o a b c 0 s t := by
      unfold trianglePoint tetrahedronPoint; congr 1 <;> ring
    simp only [weighted, this]
  have h4 : sideFlux F o (c, a) = unitTriangle fun x z => weighted F (triangleArea2 o c a) o a b c x 0 z := by
    rw [tri_sym (hc _ (fun p => (p.1, 0, p.2)) (by fun_prop))]
    unfold sideFlux flux
    apply tri_congr
    intro s t
    have : trianglePoint o c a s t = tetrahedronPoint o a b c t 0 s := by
      unfold trianglePoint tetrahedronPoint; congr 1 <;> ring
    simp only [weighted, this]
  simp only [List.map_cons, List.map_nil, List.sum_cons, List.sum_nil]
  rw [h1, h2, h3, h4]
  ring

theorem sideFlux_swap {F : V3 ℝ → V3 ℝ} (hF : SmoothField F) (o : V3 ℝ) (e : V3 ℝ × V3 ℝ) :
    sideFlux F o e.swap = - sideFlux F o e := by
  have hc : Continuous fun p : ℝ × ℝ => weighted F (triangleArea2 o e.1 e.2) o e.1 e.2 o p.2 p.1 0 := by
    have : Continuous fun p : ℝ × ℝ => ((p.2, p.1, 0) : ℝ × ℝ × ℝ) := by fun_prop
    exact (continuous_weighted hF _ o e.1 e.2 o).comp this
  have h : sideFlux F o e = unitTriangle fun s t => weighted F (triangleArea2 o e.1 e.2) o e.1 e.2 o s t 0 := by
    unfold sideFlux flux
    apply tri_congr
    intro s t
    have : trianglePoint o e.1 e.2 s t = tetrahedronPoint o e.1 e.2 o s t 0 := by
      unfold trianglePoint tetrahedronPoint; congr 1 <;> ring
    simp only [weighted, this]
  rw [h, ← tri_sym (g := fun s t => weighted F (triangleArea2 o e.1 e.2) o e.1 e.2 o t s 0) hc, neg_eq_neg_one_mul, ← tri_smul]
  unfold sideFlux flux
  apply tri_congr
  intro s t
  have : trianglePoint o e.2 e.1 s t = tetrahedronPoint o e.1 e.2 o t s 0 := by
    unfold trianglePoint tetrahedronPoint; congr 1 <;> ring
  simp only [weighted, this, triangleArea2, Prod.fst_swap, Prod.snd_swap]
  ring

theorem flux_flat {F : V3 ℝ → V3 ℝ} {t : Tri ℝ} (h : triangleArea2 t.p1 t.p2 t.p3 = ⟨0, 0, 0⟩) : flux F t = 0 := by
  unfold flux
  rw [h]
  simp [unitTriangle]

/-- The flux through the side of an edge adds up when the edge is cut. -/
theorem sideFlux_edge {F : V3 ℝ → V3 ℝ} (hF : SmoothField F) (o : V3 ℝ) : EdgeQuantity fun a b => sideFlux F o (a, b) := by
  refine ⟨fun a b => sideFlux_swap hF o (a, b), ?_⟩
  rintro a b c ⟨s, -, hb⟩
  have h := tetrahedron_divergence hF o ⟨a, b, c, ⟨0, 0, 0⟩⟩
  rw [flux_flat (by subst hb; simp only [triangleArea2, V3.mk.injEq]; refine ⟨?_, ?_, ?_⟩ <;> ring)] at h
  have hs := sideFlux_swap hF o (a, c)
  simp only [Prod.swap_prod_mk, edgesOf, List.map_cons, List.map_nil, List.sum_cons, List.sum_nil] at h hs
  have hv : tetrahedronVolume6 o a b c = 0 := by
    subst hb
    simp only [tetrahedronVolume6, triangleArea2]
    ring
  rw [hv, zero_mul] at h
  linarith

/-- The divergence theorem for closed surfaces. -/
theorem closed_divergence {F : V3 ℝ → V3 ℝ} (hF : SmoothField F) (o : V3 ℝ) {ts : List (Tri ℝ)} (hc : SealedSurface ts) :
    (ts.map (flux F)).sum = solidIntegral o (divergence F) ts := by
  have hside : ((ts.flatMap edgesOf).map (sideFlux F o)).sum = 0 := hc _ (sideFlux_edge hF o)
  have hsum : ∀ l : List (Tri ℝ), (l.map (flux F)).sum - ((l.flatMap edgesOf).map (sideFlux F o)).sum =
      solidIntegral o (divergence F) l := by
    intro l
    induction l with
    | nil => simp [solidIntegral]
    | cons t l ih =>
      have := tetrahedron_divergence hF o t
      unfold solidIntegral at ih ⊢
      simp only [List.map_cons, List.sum_cons, List.flatMap_cons, List.map_append, List.sum_append] at ih ⊢
      linarith
  have := hsum ts
  rw [hside] at this
  linarith

end QuESo.Spec
