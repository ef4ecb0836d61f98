import Verif.Proofs.SplineSeg
import Mathlib.Analysis.Calculus.IteratedDeriv.Lemmas
import Mathlib.Analysis.Calculus.Deriv.Polynomial
import Mathlib.Algebra.Polynomial.HasseDeriv
import Mathlib.Analysis.Calculus.ContDiff.Polynomial

/-! # The pieces of a spline -/
namespace QuESo.Rules
open Polynomial QuESo.Spec Set Filter Topology

theorem iteratedDeriv_eval (q : ℝ[X]) (j : ℕ) : iteratedDeriv j (fun x => q.eval x) = fun x => (derivative^[j] q).eval x := by
  induction j with
  | zero => simp
  | succ j ih =>
    rw [iteratedDeriv_succ, ih, Function.iterate_succ_apply']
    funext x
    exact Polynomial.deriv _

theorem glue_vanish {r : ℕ} {a b c : ℝ} (hac : a < c) (hcb : c < b) {h : ℝ → ℝ} {q : ℝ[X]}
    (hC : ContDiffOn ℝ r h (Ioo a b)) (h0 : ∀ x ∈ Ioo a c, h x = 0) (hq : ∀ x ∈ Ioo c b, h x = q.eval x)
    {j : ℕ} (hj : j ≤ r) : (derivative^[j] q).eval c = 0 := by
  have hopen : IsOpen (Ioo a b) := isOpen_Ioo
  have hcont : ContinuousOn (iteratedDeriv j h) (Ioo a b) :=
    (hC.continuousOn_iteratedDerivWithin (m := j) (by exact_mod_cast hj) hopen.uniqueDiffOn).congr
      (fun x hx => (iteratedDerivWithin_of_isOpen hopen hx).symm)
  have hca : ContinuousAt (iteratedDeriv j h) c := hcont.continuousAt (hopen.mem_nhds ⟨hac, hcb⟩)
  have hl : Tendsto (iteratedDeriv j h) (𝓝[<] c) (𝓝 (iteratedDeriv j h c)) := hca.tendsto.mono_left nhdsWithin_le_nhds
  have hr : Tendsto (iteratedDeriv j h) (𝓝[>] c) (𝓝 (iteratedDeriv j h c)) := hca.tendsto.mono_left nhdsWithin_le_nhds
  have e1 : iteratedDeriv j h c = 0 := by
    refine tendsto_nhds_unique hl (Tendsto.congr' ?_ tendsto_const_nhds)
    filter_upwards [Ioo_mem_nhdsLT hac] with x hx
    have : h =ᶠ[𝓝 x] fun y => (0 : ℝ[X]).eval y := by
      filter_upwards [isOpen_Ioo.mem_nhds hx] with y hy
      simp [h0 y hy]
    rw [this.iteratedDeriv_eq, iteratedDeriv_eval]
    simp
  have e2 : iteratedDeriv j h c = (derivative^[j] q).eval c := by
    have hcq : Tendsto (fun x => (derivative^[j] q).eval x) (𝓝[>] c) (𝓝 ((derivative^[j] q).eval c)) :=
      ((derivative^[j] q).continuous.tendsto c).mono_left nhdsWithin_le_nhds
    refine tendsto_nhds_unique hr (Tendsto.congr' ?_ hcq)
    filter_upwards [Ioo_mem_nhdsGT hcb] with x hx
    have : h =ᶠ[𝓝 x] fun y => q.eval y := by
      filter_upwards [isOpen_Ioo.mem_nhds hx] with y hy
      exact hq y hy
    rw [this.iteratedDeriv_eq, iteratedDeriv_eval]
  rw [← e2, e1]

theorem taylor_coeff_zero_of (q : ℝ[X]) (c : ℝ) (j : ℕ) (h : (derivative^[j] q).eval c = 0) : (taylor c q).coeff j = 0 := by
  rw [taylor_coeff]
  have h0 : j.factorial • hasseDeriv j q = derivative^[j] q := congrFun (factorial_smul_hasseDeriv (R := ℝ) (k := j)) q
  have h1 := congrArg (fun z : ℝ[X] => z.eval c) h0
  simp only [h, nsmul_eq_mul, eval_mul, eval_natCast] at h1
  have : (j.factorial : ℝ) ≠ 0 := by exact_mod_cast j.factorial_ne_zero
  rcases mul_eq_zero.mp h1 with h2 | h2
  · exact absurd h2 this
  · exact h2

/-- The pieces of a spline in local coordinates, continued beyond the last span. -/
theorem exists_pieces {p r e : ℕ} (he : 0 < e) {f : ℝ → ℝ} (hf : IsSpline p r e f) :
    ∃ s : ℕ → ℝ[X], Pieces p (r + 1) s ∧ ∀ k < e, ∀ t ∈ Icc (0 : ℝ) 1, f ((k + t) / e) = (s k).eval t := by
  obtain ⟨hC, hP⟩ := hf
  have her : (0 : ℝ) < e := by exact_mod_cast he
  choose! u hu1 hu2 using hP
  set g : ℕ → ℝ[X] := fun k => (u k).comp (C (1 / (e : ℝ)) * (X + C (k : ℝ))) with hg
  have hgdeg : ∀ k < e, (g k).natDegree ≤ p := by
    intro k hk
    refine le_trans natDegree_comp_le ?_
    have : (C (1 / (e : ℝ)) * (X + C (k : ℝ))).natDegree ≤ 1 := by
      refine (natDegree_C_mul_le _ _).trans ?_
      rw [natDegree_X_add_C]
    calc _ ≤ (u k).natDegree * 1 := Nat.mul_le_mul_left _ this
      _ ≤ p := by rw [mul_one]; exact hu1 k hk
  have hgev : ∀ k t, (g k).eval t = (u k).eval ((k + t) / e) := by
    intro k t
    simp only [hg, eval_comp, eval_mul, eval_C, eval_add, eval_X]
    congr 1; field_simp; ring
  have hgf : ∀ k < e, ∀ t ∈ Icc (0 : ℝ) 1, f ((k + t) / e) = (g k).eval t := by
    intro k hk t ht
    rw [hgev]
    refine hu2 k hk _ ⟨?_, ?_⟩
    · rw [div_le_div_iff_of_pos_right her]; linarith [ht.1]
    · rw [div_le_div_iff_of_pos_right her]; linarith [ht.2]
  have hglue : ∀ k, k + 1 < e → ∀ j < r + 1, (taylor 1 (g k)).coeff j = (g (k + 1)).coeff j := by
    intro k hk j hj
    set q : ℝ[X] := (taylor (-((k : ℝ) + 1)) (g (k + 1))) - taylor (-(k : ℝ)) (g k) with hqd
    have hkr : (k : ℝ) + 2 ≤ e := by exact_mod_cast (by omega : k + 2 ≤ e)
    have hmaps : MapsTo (fun y : ℝ => y / e) (Ioo (k : ℝ) (k + 2)) (Icc 0 1) := by
      intro y hy
      have hk0 : (0 : ℝ) ≤ k := Nat.cast_nonneg k
      exact ⟨div_nonneg (by linarith [hy.1]) her.le, by rw [div_le_one her]; linarith [hy.2]⟩
    have hFC : ContDiffOn ℝ r (fun y => f (y / e) - (taylor (-(k : ℝ)) (g k)).eval y) (Ioo (k : ℝ) (k + 2)) := by
      refine ContDiffOn.sub ?_ ?_
      · exact hC.comp (contDiff_id.div_const _).contDiffOn hmaps
      · exact (by simpa using (Polynomial.contDiff_aeval (R := ℝ) (𝕜 := ℝ) (taylor (-(k : ℝ)) (g k)) (r : WithTop ℕ∞)) : ContDiff ℝ r fun y => (taylor (-(k : ℝ)) (g k)).eval y).contDiffOn
    have hv := glue_vanish (c := (k : ℝ) + 1) (q := q) (by linarith) (by linarith) hFC
      (fun x hx => by
        have h1 := hgf k (by omega) (x - k) ⟨by linarith [hx.1], by linarith [hx.2]⟩
        rw [show ((k : ℝ) + (x - k)) / e = x / e by congr 1; ring] at h1
        rw [taylor_eval, h1]; simp [sub_eq_add_neg])
      (fun x hx => by
        have h1 := hgf (k + 1) hk (x - (k + 1)) ⟨by linarith [hx.1], by linarith [hx.2]⟩
        rw [show (((k + 1 : ℕ) : ℝ) + (x - (k + 1))) / e = x / e by congr 1; push_cast; ring] at h1
        rw [h1, hqd, eval_sub, taylor_eval (-((k : ℝ) + 1)), sub_eq_add_neg x])
      (show j ≤ r by omega)
    have h2 := taylor_coeff_zero_of q _ j hv
    rw [hqd, map_sub, taylor_taylor, taylor_taylor, coeff_sub] at h2
    have e1 : (k : ℝ) + 1 + -((k : ℝ) + 1) = 0 := by ring
    have e2 : (k : ℝ) + 1 + -(k : ℝ) = 1 := by ring
    rw [e1, e2, taylor_zero] at h2
    linarith
  refine ⟨fun k => if k < e then g k else taylor ((k : ℝ) - ((e : ℝ) - 1)) (g (e - 1)), ⟨?_, ?_⟩, ?_⟩
  · intro k
    by_cases hk : k < e
    · simp only [hk, if_true]; exact hgdeg k hk
    · simp only [hk, if_false, natDegree_taylor]; exact hgdeg _ (by omega)
  · intro k j hj
    by_cases hk : k + 1 < e
    · simp only [hk, show k < e by omega, if_true]; exact hglue k hk j hj
    · by_cases hk2 : k < e
      · have : k = e - 1 := by omega
        subst this
        simp only [hk, hk2, if_true, if_false]
        congr 2
        have : ((e - 1 : ℕ) : ℝ) = (e : ℝ) - 1 := by rw [Nat.cast_sub (by omega)]; simp
        push_cast
        rw [this, show (e : ℝ) - 1 + 1 - (e - 1) = 1 by ring]
      · simp only [hk, hk2, if_false, taylor_taylor]
        congr 2
        rw [show (1 : ℝ) + ((k : ℝ) - (e - 1)) = ((k + 1 : ℕ) : ℝ) - (e - 1) by push_cast; ring]
  · intro k hk t ht
    simp only [hk, if_true]
    exact hgf k hk t ht

/-- Positions and weights of a rule on `e` spans of length one, on the unit interval. -/
def unscale (e : ℕ) (l : Rule) : Rule := l.map fun q => (q.1 / e, q.2 / e)

theorem quadSum_unscale (e : ℕ) (l : Rule) (f : ℝ → ℝ) :
    quadSum (unscale e l) f = quadSum l (fun x => f (x / e)) / e := by
  simp only [quadSum, unscale, List.map_map, Function.comp_def]
  induction l with
  | nil => simp
  | cons a t ih =>
    simp only [List.map_cons, List.sum_cons, ih, add_div]
    congr 1
    push_cast; ring

theorem segOK_exact {p r S e : ℕ} (he : 0 < e) {ε : ℝ} {pts : Rule} (h : SegOK p (r + 1) S ε 0 e pts [] [])
    {f : ℝ → ℝ} (hf : IsSpline p r e f) {M : ℝ} (hM : ∀ x ∈ Icc (0 : ℝ) 1, |f x| ≤ M) :
    IntegratesUpTo (ε * M) (unscale e pts) f := by
  have her : (0 : ℝ) < e := by exact_mod_cast he
  obtain ⟨s, hs, hsf⟩ := exists_pieces he hf
  have hIcc : ∀ k < e, ∀ t ∈ Icc (0 : ℝ) 1, ((k : ℝ) + t) / e ∈ Icc (0 : ℝ) 1 := by
    intro k hk t ht
    have h1 : (k : ℝ) + 1 ≤ e := by exact_mod_cast hk
    have h0 : (0 : ℝ) ≤ k := Nat.cast_nonneg k
    exact ⟨div_nonneg (by linarith [ht.1]) her.le, by rw [div_le_one her]; linarith [ht.2]⟩
  have e1 := h.2 s (fun x => f (x / e)) M hs
    (fun k _ hk x hx => by rw [← hsf k hk x hx]; exact hM _ (hIcc k hk x hx))
    (fun k _ hk t ht => hsf k hk t ht)
  simp only [dotL, List.length_nil, Finset.range_zero, Finset.sum_empty, LinearMap.zero_apply, sub_zero,
    Nat.cast_zero] at e1
  have hint : ∫ x in (0 : ℝ)..1, f x = (∑ k ∈ Finset.Ico 0 e, intL (s k)) / e := by
    have hc : ContinuousOn f (Icc 0 1) := hf.1.continuousOn
    have hci : ∀ k < e, IntervalIntegrable f MeasureTheory.volume ((k : ℝ) / e) (((k + 1 : ℕ) : ℝ) / e) := by
      intro k hk
      refine ContinuousOn.intervalIntegrable_of_Icc ?_ (hc.mono ?_)
      · rw [div_le_div_iff_of_pos_right her]; push_cast; linarith
      · intro x hx
        have h1 : (k : ℝ) + 1 ≤ e := by exact_mod_cast hk
        have h0 : (0 : ℝ) ≤ k := Nat.cast_nonneg k
        push_cast at hx
        refine ⟨le_trans (div_nonneg h0 her.le) hx.1, hx.2.trans ?_⟩
        rw [div_le_one her]; exact h1
    have h1 := intervalIntegral.sum_integral_adjacent_intervals (a := fun k : ℕ => (k : ℝ) / e) (n := e) hci
    simp only [Nat.cast_zero, zero_div, div_self her.ne'] at h1
    rw [← h1, Nat.Ico_zero_eq_range, Finset.sum_div]
    refine Finset.sum_congr rfl fun k hk => ?_
    have hk' := Finset.mem_range.mp hk
    have h2 : intL (s k) = ∫ t in (0 : ℝ)..1, f ((k + t) / e) := by
      show ∫ x in (0 : ℝ)..1, (s k).eval x = _
      refine intervalIntegral.integral_congr fun t ht => ?_
      rw [uIcc_of_le (by norm_num)] at ht
      exact (hsf k hk' t ht).symm
    rw [h2]
    have h3 := intervalIntegral.integral_comp_mul_add (a := 0) (b := 1) (fun x => f x) (c := 1 / (e : ℝ))
      (by positivity) ((k : ℝ) / e)
    have h4 : ∀ t : ℝ, 1 / (e : ℝ) * t + (k : ℝ) / e = (k + t) / e := by intro t; field_simp; ring
    simp only [h4, smul_eq_mul] at h3
    rw [h3]
    push_cast
    field_simp
    simp
  unfold IntegratesUpTo
  rw [quadSum_unscale, hint, ← sub_div, abs_div, abs_of_pos her, div_le_iff₀ her]
  refine e1.trans (le_of_eq ?_)
  ring

end QuESo.Rules
