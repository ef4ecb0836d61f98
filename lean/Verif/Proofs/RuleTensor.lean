import Verif.Proofs.RuleGood
import Verif.Model.SingleElement
import Mathlib.Analysis.Calculus.ContDiff.Polynomial
import Mathlib.MeasureTheory.Integral.DominatedConvergence

/-! # Tensor-product rules on a box -/
namespace QuESo.Rules
open QuESo.Spec QuESo.Mapping Set

/-- value of the rule moved to `[a, a + len]` -/
noncomputable def quadOn (rule : Rule) (a len : ℝ) (f : ℝ → ℝ) : ℝ :=
  (rule.map fun q => (q.2 : ℝ) * len * f (a + len * q.1)).sum

theorem _root_.QuESo.Spec.IsPoly.zero (d : ℕ) : IsPoly d (fun _ => 0) := ⟨0, by simp, by simp⟩
theorem _root_.QuESo.Spec.IsPoly.add {d : ℕ} {f g : ℝ → ℝ} (hf : IsPoly d f) (hg : IsPoly d g) : IsPoly d (fun x => f x + g x) := by
  obtain ⟨p, hp, ep⟩ := hf
  obtain ⟨q, hq, eq⟩ := hg
  exact ⟨p + q, (Polynomial.natDegree_add_le _ _).trans (max_le hp hq), fun x => by simp [ep, eq]⟩
theorem _root_.QuESo.Spec.IsPoly.smul {d : ℕ} {f : ℝ → ℝ} (c : ℝ) (hf : IsPoly d f) : IsPoly d (fun x => c * f x) := by
  obtain ⟨p, hp, ep⟩ := hf
  exact ⟨Polynomial.C c * p, (Polynomial.natDegree_C_mul_le _ _).trans hp, fun x => by simp [ep]⟩
theorem _root_.QuESo.Spec.IsPoly.pow {d i : ℕ} (h : i ≤ d) : IsPoly d (fun x => x ^ i) :=
  ⟨Polynomial.X ^ i, (Polynomial.natDegree_X_pow_le i).trans h, by simp⟩
theorem _root_.QuESo.Spec.IsPoly.sum {ι : Type*} {d : ℕ} (s : Finset ι) {f : ι → ℝ → ℝ} (h : ∀ i ∈ s, IsPoly d (f i)) :
    IsPoly d (fun x => ∑ i ∈ s, f i x) := by
  classical
  induction s using Finset.induction_on with
  | empty => simpa using IsPoly.zero d
  | insert a s ha ih =>
    simp only [Finset.sum_insert ha]
    exact (h a (Finset.mem_insert_self a s)).add (ih fun i hi => h i (Finset.mem_insert_of_mem hi))
theorem _root_.QuESo.Spec.IsPoly.quadOn {d : ℕ} {f : ℝ → ℝ → ℝ} (rule : Rule) (a len : ℝ) (h : ∀ y, IsPoly d (fun x => f x y)) :
    IsPoly d (fun x => quadOn rule a len (f x)) := by
  unfold Rules.quadOn
  induction rule with
  | nil => simpa using IsPoly.zero d
  | cons q t ih =>
    simp only [List.map_cons, List.sum_cons]
    exact ((h _).smul _).add ih

theorem quadOn_continuous {f : ℝ → ℝ → ℝ} (rule : Rule) (a len : ℝ) (h : Continuous (Function.uncurry f)) :
    Continuous fun x => quadOn rule a len (f x) := by
  unfold quadOn
  induction rule with
  | nil => simpa using continuous_const
  | cons q t ih =>
    simp only [List.map_cons, List.sum_cons]
    exact (continuous_const.mul (h.comp (continuous_id.prodMk continuous_const))).add ih

/-- One direction. -/
theorem quadOn_approx {p r : ℕ} {rule : Rule} (hg : GoodRule p r 1 rule) {a b : ℝ} (hab : a ≤ b) {g : ℝ → ℝ}
    (h : IsPoly p g) {M : ℝ} (hM : ∀ x ∈ Icc a b, |g x| ≤ M) :
    |quadOn rule a (b - a) g - ∫ x in a..b, g x| ≤ 1 / 10 ^ 12 * ((b - a) * M) := by
  obtain ⟨q, hq, eq⟩ := h
  have hl : 0 ≤ b - a := by linarith
  set s : Polynomial ℝ := Polynomial.C (b - a) * q.comp (Polynomial.C a + Polynomial.C (b - a) * Polynomial.X) with hs
  have hsev : ∀ x, s.eval x = (b - a) * g (a + (b - a) * x) := by
    intro x; rw [hs, eq]; simp
  have hdeg : s.natDegree ≤ p := by
    rw [hs]
    refine (Polynomial.natDegree_C_mul_le _ _).trans (Polynomial.natDegree_comp_le.trans ?_)
    have : (Polynomial.C a + Polynomial.C (b - a) * Polynomial.X : Polynomial ℝ).natDegree ≤ 1 := by
      refine (Polynomial.natDegree_add_le _ _).trans (max_le (by simp) ?_)
      exact (Polynomial.natDegree_C_mul_le _ _).trans Polynomial.natDegree_X_le
    exact (Nat.mul_le_mul_left _ this).trans (by simpa using hq)
  have hsp : IsSpline p r 1 (fun x => s.eval x) := by
    refine ⟨?_, fun k hk => ⟨s, hdeg, fun x _ => rfl⟩⟩
    have := (Polynomial.contDiff_aeval (𝕜 := ℝ) s r)
    simpa using this.contDiffOn
  have := hg.2.2 (fun x => s.eval x) ((b - a) * M) hsp (by
    intro x hx
    rw [hsev, abs_mul, abs_of_nonneg hl]
    refine mul_le_mul_of_nonneg_left (hM _ ⟨?_, ?_⟩) hl
    · nlinarith [hx.1, hx.2]
    · nlinarith [hx.1, hx.2])
  unfold IntegratesUpTo at this
  have e1 : quadSum rule (fun x => s.eval x) = quadOn rule a (b - a) g := by
    unfold quadSum quadOn
    congr 1
    refine List.map_congr_left fun q _ => ?_
    simp only [hsev]; ring
  have e2 : ∫ x in (0 : ℝ)..1, s.eval x = ∫ x in a..b, g x := by
    simp only [hsev]
    rw [intervalIntegral.integral_const_mul]
    have := intervalIntegral.mul_integral_comp_add_mul (f := g) (a := 0) (b := 1) (b - a) a
    rw [this]; congr 1 <;> ring
  rwa [e1, e2] at this

theorem integral_abs_le {a b : ℝ} (hab : a ≤ b) {g : ℝ → ℝ} {M : ℝ} (hM : ∀ x ∈ Icc a b, |g x| ≤ M) :
    |∫ x in a..b, g x| ≤ (b - a) * M := by
  have := intervalIntegral.norm_integral_le_of_norm_le_const (a := a) (b := b) (f := g) (C := M) (by
    intro x hx
    rw [uIoc_of_le hab] at hx
    exact hM x ⟨hx.1.le, hx.2⟩)
  rw [Real.norm_eq_abs, abs_of_nonneg (by linarith : 0 ≤ b - a)] at this
  linarith

theorem quadOn_abs_le {p r : ℕ} {rule : Rule} (hg : GoodRule p r 1 rule) {a b : ℝ} (hab : a ≤ b) {g : ℝ → ℝ}
    (h : IsPoly p g) {M : ℝ} (hM : ∀ x ∈ Icc a b, |g x| ≤ M) :
    |quadOn rule a (b - a) g| ≤ (1 + 1 / 10 ^ 12) * ((b - a) * M) := by
  have h1 := quadOn_approx hg hab h hM
  have h2 := integral_abs_le hab hM
  have := abs_sub_abs_le_abs_sub (quadOn rule a (b - a) g) (∫ x in a..b, g x)
  linarith

/-- The tensor product. -/
theorem tensor_approx {dx dy dz : ℕ} {rx ry rz : ℕ} {ru rv rw : Rule} (hu : GoodRule dx rx 1 ru) (hv : GoodRule dy ry 1 rv)
    (hw : GoodRule dz rz 1 rw) {f : ℝ → ℝ → ℝ → ℝ} (hf : TriPoly dx dy dz f) {a b : V3 ℝ} (hx : a.x ≤ b.x) (hy : a.y ≤ b.y)
    (hz : a.z ≤ b.z) {M : ℝ}
    (hM : ∀ x ∈ Icc a.x b.x, ∀ y ∈ Icc a.y b.y, ∀ z ∈ Icc a.z b.z, |f x y z| ≤ M) :
    |quadOn ru a.x (b.x - a.x) (fun x => quadOn rv a.y (b.y - a.y) fun y => quadOn rw a.z (b.z - a.z) fun z => f x y z) -
        ∫ x in a.x..b.x, ∫ y in a.y..b.y, ∫ z in a.z..b.z, f x y z| ≤
      4 / 10 ^ 12 * ((b.x - a.x) * (b.y - a.y) * (b.z - a.z) * M) := by
  set X := b.x - a.x with hX
  set Y := b.y - a.y with hY
  set Z := b.z - a.z with hZ
  have X0 : 0 ≤ X := by rw [hX]; linarith
  have Y0 : 0 ≤ Y := by rw [hY]; linarith
  have Z0 : 0 ≤ Z := by rw [hZ]; linarith
  have hM0 : 0 ≤ M := (abs_nonneg _).trans (hM a.x ⟨le_rfl, hx⟩ a.y ⟨le_rfl, hy⟩ a.z ⟨le_rfl, hz⟩)
  -- innermost direction
  set B : ℝ → ℝ → ℝ := fun x y => quadOn rw a.z Z fun z => f x y z with hB
  set A : ℝ → ℝ := fun x => quadOn rv a.y Y (B x) with hA
  have cf2 : Continuous (fun q : (ℝ × ℝ) × ℝ => f q.1.1 q.1.2 q.2) :=
    hf.cont.comp ((continuous_fst.comp continuous_fst).prodMk ((continuous_snd.comp continuous_fst).prodMk continuous_snd))
  have cB : Continuous (Function.uncurry B) := by
      have : ∀ (l : Rule), Continuous (fun q : ℝ × ℝ => quadOn l a.z Z fun z => f q.1 q.2 z) := by
        intro l
        unfold quadOn
        induction l with
        | nil => simpa using continuous_const
        | cons q t ih =>
          simp only [List.map_cons, List.sum_cons]
          exact (continuous_const.mul (cf2.comp (continuous_id.prodMk continuous_const))).add ih
      exact this rw
  have cA : Continuous A := quadOn_continuous rv a.y Y cB
  have pB : ∀ x, IsPoly dy (B x) := fun x => IsPoly.quadOn rw a.z Z (fun z => hf.py x z)
  have pBx : ∀ y, IsPoly dx (fun x => B x y) := fun y => IsPoly.quadOn rw a.z Z (fun z => hf.px y z)
  have pA : IsPoly dx A := IsPoly.quadOn rv a.y Y pBx
  have bB : ∀ x ∈ Icc a.x b.x, ∀ y ∈ Icc a.y b.y, |B x y| ≤ (1 + 1 / 10 ^ 12) * (Z * M) := fun x h1 y h2 =>
    quadOn_abs_le hw hz (hf.pz x y) (hM x h1 y h2)
  have bA : ∀ x ∈ Icc a.x b.x, |A x| ≤ (1 + 1 / 10 ^ 12) * (Y * ((1 + 1 / 10 ^ 12) * (Z * M))) := fun x h1 =>
    quadOn_abs_le hv hy (pB x) (bB x h1)
  have s1 := quadOn_approx hu hx pA bA
  -- inner integrals
  set D : ℝ → ℝ → ℝ := fun x y => ∫ z in a.z..b.z, f x y z with hD
  set C : ℝ → ℝ := fun x => ∫ y in a.y..b.y, D x y with hC
  have cD : Continuous (Function.uncurry D) :=
    intervalIntegral.continuous_parametric_intervalIntegral_of_continuous' (f := fun (q : ℝ × ℝ) z => f q.1 q.2 z)
      cf2 a.z b.z
  have cC : Continuous C := intervalIntegral.continuous_parametric_intervalIntegral_of_continuous' cD a.y b.y
  have dBD : ∀ x ∈ Icc a.x b.x, ∀ y ∈ Icc a.y b.y, |B x y - D x y| ≤ 1 / 10 ^ 12 * (Z * M) := fun x h1 y h2 =>
    quadOn_approx hw hz (hf.pz x y) (hM x h1 y h2)
  have dAC : ∀ x ∈ Icc a.x b.x, |A x - C x| ≤
      1 / 10 ^ 12 * (Y * ((1 + 1 / 10 ^ 12) * (Z * M))) + Y * (1 / 10 ^ 12 * (Z * M)) := by
    intro x h1
    have t1 := quadOn_approx hv hy (pB x) (bB x h1)
    have cBx : Continuous (B x) := cB.comp (continuous_const.prodMk continuous_id)
    have cDx : Continuous (D x) := cD.comp (continuous_const.prodMk continuous_id)
    have t2 := integral_abs_le hy (g := fun y => B x y - D x y) (dBD x h1)
    rw [intervalIntegral.integral_sub (cBx.intervalIntegrable _ _) (cDx.intervalIntegrable _ _)] at t2
    calc |A x - C x| = |(A x - ∫ y in a.y..b.y, B x y) + ((∫ y in a.y..b.y, B x y) - C x)| := by ring_nf
      _ ≤ _ := (abs_add_le _ _).trans (add_le_add t1 t2)
  have t3 := integral_abs_le hx (g := fun x => A x - C x) dAC
  rw [intervalIntegral.integral_sub (cA.intervalIntegrable _ _) (cC.intervalIntegrable _ _)] at t3
  have V0 : 0 ≤ X * Y * Z * M := by positivity
  calc _ = |(quadOn ru a.x X A - ∫ x in a.x..b.x, A x) + ((∫ x in a.x..b.x, A x) - ∫ x in a.x..b.x, C x)| := by ring_nf
    _ ≤ _ := (abs_add_le _ _).trans (add_le_add s1 t3)
    _ = (1 / 10 ^ 12 * (1 + 1 / 10 ^ 12) ^ 2 + 1 / 10 ^ 12 * (1 + 1 / 10 ^ 12) + 1 / 10 ^ 12) * (X * Y * Z * M) := by ring
    _ ≤ 4 / 10 ^ 12 * (X * Y * Z * M) := mul_le_mul_of_nonneg_right (by norm_num) V0

end QuESo.Rules
