import Verif.Model.Rules
import Verif.Spec.Spline
import Mathlib.Algebra.Polynomial.Taylor
import Mathlib.Topology.Algebra.Polynomial
import Mathlib.Data.List.GetD
import Mathlib.Analysis.SpecialFunctions.Integrals.Basic
import Mathlib.Tactic.Linarith
import Mathlib.Tactic.FieldSimp
import Mathlib.Tactic.Ring

/-! # A checker for the exactness of a rule on one knot span -/
namespace QuESo.Rules
open Polynomial

/-- integral over the unit interval, as a linear map -/
noncomputable def intL : ℝ[X] →ₗ[ℝ] ℝ where
  toFun g := ∫ x in (0 : ℝ)..1, g.eval x
  map_add' a b := by
    simp only [eval_add]
    exact intervalIntegral.integral_add (a.continuous.intervalIntegrable _ _) (b.continuous.intervalIntegrable _ _)
  map_smul' c a := by
    simp only [eval_smul, smul_eq_mul, RingHom.id_apply]
    exact intervalIntegral.integral_const_mul _ _

theorem intL_X_pow (i : ℕ) : intL (X ^ i) = 1 / ((i : ℝ) + 1) := by
  simp [intL, integral_pow]

/-- `∑ l_j g_j` for the coefficients of `g` -/
noncomputable def dotL (S : ℝ) (l : List Int) : ℝ[X] →ₗ[ℝ] ℝ :=
  ∑ j ∈ Finset.range l.length, ((l.getD j 0 : ℝ) / S) • lcoeff ℝ j

/-- `∑ w g(t)` for local points -/
noncomputable def sumL (S : ℝ) (pts : List (Int × Int)) : ℝ[X] →ₗ[ℝ] ℝ :=
  (pts.map fun q => ((q.2 : ℝ) / S) • leval ((q.1 : ℝ) / S)).sum

/-- The residual on one span. -/
noncomputable def rho (S : ℝ) (pts : List (Int × Int)) (l l' : List Int) : ℝ[X] →ₗ[ℝ] ℝ :=
  sumL S pts - intL - (dotL S l' ∘ₗ taylor 1 - dotL S l)

theorem sumL_apply (S : ℝ) (pts : List (Int × Int)) (g : ℝ[X]) :
    sumL S pts g = (pts.map fun q => ((q.2 : ℝ) / S) * g.eval ((q.1 : ℝ) / S)).sum := by
  unfold sumL
  induction pts with
  | nil => simp
  | cons a t ih => simp [ih, LinearMap.add_apply, leval_apply]

theorem dotL_apply (S : ℝ) (l : List Int) (g : ℝ[X]) :
    dotL S l g = ∑ j ∈ Finset.range l.length, ((l.getD j 0 : ℝ) / S) * g.coeff j := by
  simp [dotL, LinearMap.sum_apply, lcoeff_apply]

/-- powers, for the kernel -/
def pw (t : Int) : Nat → Int
  | 0 => 1
  | n + 1 => pw t n * t

theorem pw_eq (t : Int) (n : Nat) : pw t n = t ^ n := by
  induction n with
  | zero => simp [pw]
  | succ n ih => rw [pw, ih, pow_succ]

def sumI (l : List Int) : Int := l.foldr (fun a b => a + b) 0

theorem sumI_eq (l : List Int) : sumI l = l.sum := by
  induction l with
  | nil => rfl
  | cons a t ih => simp [sumI] at ih ⊢; exact ih

/-- `fact * S ^ (p + 1)` times the residual of the monomial `i`. -/
def mu (S : Int) (p : Nat) (fact : Int) (pts : List (Int × Int)) (l l' : List Int) (i : Nat) : Int :=
  fact * (pw S (p - i) * sumI (pts.map fun q => q.2 * pw q.1 i)
      - (sumI ((List.range l'.length).map fun j => l'.getD j 0 * (Nat.choose i j : Nat)) - l.getD i 0) * pw S p)
    - fact / (i + 1 : Nat) * pw S (p + 1)

theorem sum_map_range {M : Type*} [AddCommMonoid M] (n : ℕ) (f : ℕ → M) :
    ((List.range n).map f).sum = ∑ j ∈ Finset.range n, f j := by
  rw [Finset.sum_eq_multiset_sum]; rfl

theorem mu_eq (S : Int) (hS : 0 < S) (p : Nat) (fact : Int) (pts : List (Int × Int)) (l l' : List Int) (i : Nat)
    (hi : i ≤ p) (hf : (fact % (i + 1 : Nat)) = 0) :
    (mu S p fact pts l l' i : ℝ) = fact * (S : ℝ) ^ (p + 1) * rho S pts l l' (X ^ i) := by
  have hS' : (S : ℝ) ≠ 0 := by exact_mod_cast hS.ne'
  have h1 : sumL S pts (X ^ i) = ((sumI (pts.map fun q => q.2 * pw q.1 i) : Int) : ℝ) / (S : ℝ) ^ (i + 1) := by
    rw [sumL_apply, sumI_eq]
    induction pts with
    | nil => simp
    | cons a t ih =>
      simp only [List.map_cons, List.sum_cons, ih, pw_eq]
      push_cast
      simp only [eval_pow, eval_X, div_pow]
      field_simp
      ring
  have h2 : dotL S l' (taylor 1 (X ^ i)) =
      ((sumI ((List.range l'.length).map fun j => l'.getD j 0 * (Nat.choose i j : Nat)) : Int) : ℝ) / S := by
    rw [dotL_apply, sumI_eq, sum_map_range]
    push_cast
    rw [Finset.sum_div]
    refine Finset.sum_congr rfl fun j _ => ?_
    have : (taylor 1 (X ^ i : ℝ[X])).coeff j = (Nat.choose i j : ℝ) := by
      rw [taylor_X_pow, map_one, coeff_X_add_one_pow]
    rw [this]; ring
  have h3 : dotL S l (X ^ i) = (l.getD i 0 : ℝ) / S := by
    rw [dotL_apply]
    simp only [coeff_X_pow]
    by_cases h : i < l.length
    · rw [Finset.sum_eq_single i]
      · simp
      · intro b _ hb; simp [hb]
      · intro hn; exact absurd (Finset.mem_range.mpr h) hn
    · rw [Finset.sum_eq_zero]
      · rw [List.getD_eq_default _ _ (by omega)]; simp
      · intro b hb
        have : b ≠ i := by have := Finset.mem_range.mp hb; omega
        simp [this]
  have h4 : ((fact / ((i + 1 : Nat) : Int) : Int) : ℝ) = (fact : ℝ) / ((i : ℝ) + 1) := by
    have hd : ((i + 1 : Nat) : Int) ∣ fact := Int.dvd_of_emod_eq_zero hf
    have h0 : (((i + 1 : Nat) : Int) : ℝ) ≠ 0 := by push_cast; positivity
    rw [Int.cast_div hd h0]
    push_cast; rfl
  rw [rho, LinearMap.sub_apply, LinearMap.sub_apply, LinearMap.sub_apply, LinearMap.comp_apply, h1, h2, h3, intL_X_pow, mu]
  rw [Int.cast_sub, Int.cast_mul (_ / _), h4]
  push_cast
  simp only [pw_eq, Int.cast_pow]
  have hp : (S : ℝ) ^ (p + 1) = S ^ (p - i) * S ^ (i + 1) := by rw [← pow_add]; congr 1; omega
  have hp2 : (S : ℝ) ^ (p + 1) = S ^ p * S := pow_succ _ _
  generalize hA : ((sumI (pts.map fun q => q.2 * q.1 ^ i) : Int) : ℝ) = A
  generalize ((sumI ((List.range l'.length).map fun j => l'.getD j 0 * (Nat.choose i j : Nat)) : Int) : ℝ) = B
  have e1 : (S : ℝ) ^ (p + 1) * (A / (S : ℝ) ^ (i + 1)) = S ^ (p - i) * A := by rw [hp]; field_simp
  have e2 : ∀ y : ℝ, (S : ℝ) ^ (p + 1) * (y / S) = S ^ p * y := by intro y; rw [hp2]; field_simp
  calc _ = (fact : ℝ) * ((S ^ (p - i) * A) - (S ^ p * B - S ^ p * (l.getD i 0 : ℝ))) - fact / ((i:ℝ) + 1) * S ^ (p + 1) := by ring
    _ = _ := by rw [← e1, ← e2, ← e2]; ring

/-- Coefficients from values at `j / p`: `rows[j][i] / D` is the coefficient `i` of the `j`-th cardinal polynomial. -/
structure Lagrange where
  p : Nat
  D : Int
  fact : Int
  rows : List (List Int)

def Lagrange.at (L : Lagrange) (j i : Nat) : Int := (L.rows.getD j []).getD i 0

def Lagrange.ok (L : Lagrange) : Bool :=
  decide (0 < L.p) && decide (0 < L.D) && decide (0 < L.fact) &&
    (List.range (L.p + 1)).all (fun i => decide (L.fact % (i + 1 : Nat) = 0) && (List.range (L.p + 1)).all fun k =>
      decide (sumI ((List.range (L.p + 1)).map fun j => L.at j i * pw (j : Int) k) =
        if i = k then L.D * pw (L.p : Int) k else 0))

/-- Bound of the residual of a span: `num / den` times the largest value on the span. -/
def checkSpan (L : Lagrange) (S num den : Int) (pts : List (Int × Int)) (l l' : List Int) : Bool :=
  let ms := (List.range (L.p + 1)).map (mu S L.p L.fact pts l l')
  decide (sumI ((List.range (L.p + 1)).map fun j =>
      ((sumI ((List.range (L.p + 1)).map fun i => L.at j i * ms.getD i 0)).natAbs : Int)) * den
    ≤ num * (L.D * L.fact * pw S (L.p + 1)))

theorem checkSpan_sound (L : Lagrange) (hL : L.ok = true) (S num den : Int) (hS : 0 < S) (hd : 0 < den)
    (pts : List (Int × Int)) (l l' : List Int) (h : checkSpan L S num den pts l l' = true)
    (g : ℝ[X]) (hg : g.natDegree ≤ L.p) (M : ℝ) (hM : ∀ x ∈ Set.Icc (0 : ℝ) 1, |g.eval x| ≤ M) :
    |rho S pts l l' g| ≤ (num : ℝ) / den * M := by
  simp only [Lagrange.ok, Bool.and_eq_true, decide_eq_true_eq, List.all_eq_true, List.mem_range] at hL
  obtain ⟨⟨⟨hp, hD⟩, hF⟩, hA⟩ := hL
  have hDr : (0 : ℝ) < L.D := by exact_mod_cast hD
  have hFr : (0 : ℝ) < L.fact := by exact_mod_cast hF
  have hSr : (0 : ℝ) < S := by exact_mod_cast hS
  have hpr : (0 : ℝ) < L.p := by exact_mod_cast hp
  have hdr : (0 : ℝ) < den := by exact_mod_cast hd
  -- coefficients from values
  have hco : ∀ i ∈ Finset.range (L.p + 1),
      (L.D : ℝ) * g.coeff i = ∑ j ∈ Finset.range (L.p + 1), (L.at j i : ℝ) * g.eval ((j : ℝ) / L.p) := by
    intro i hi
    have hi' := Finset.mem_range.mp hi
    have key : ∀ k ∈ Finset.range (L.p + 1),
        ∑ j ∈ Finset.range (L.p + 1), (L.at j i : ℝ) * (((j : ℝ) / L.p) ^ k) = if i = k then (L.D : ℝ) else 0 := by
      intro k hk
      have := (hA i hi').2 k (Finset.mem_range.mp hk)
      rw [sumI_eq, sum_map_range] at this
      have h2 : ∑ j ∈ Finset.range (L.p + 1), (L.at j i : ℝ) * (j : ℝ) ^ k = if i = k then (L.D : ℝ) * (L.p : ℝ) ^ k else 0 := by
        have h3 := congrArg (fun z : Int => (z : ℝ)) this
        simp only [pw_eq] at h3
        push_cast at h3
        simpa using h3
      calc _ = (∑ j ∈ Finset.range (L.p + 1), (L.at j i : ℝ) * (j : ℝ) ^ k) / (L.p : ℝ) ^ k := by
            rw [Finset.sum_div]; refine Finset.sum_congr rfl fun j _ => ?_; rw [div_pow]; ring
        _ = _ := by
            rw [h2]; split
            · field_simp
            · simp
    have hev : ∀ x, g.eval x = ∑ k ∈ Finset.range (L.p + 1), g.coeff k * x ^ k := fun x =>
      eval_eq_sum_range' (by omega) x
    simp only [hev, Finset.mul_sum]
    rw [Finset.sum_comm]
    have : ∀ k ∈ Finset.range (L.p + 1), ∑ j ∈ Finset.range (L.p + 1),
        (L.at j i : ℝ) * (g.coeff k * ((j : ℝ) / L.p) ^ k) = g.coeff k * (if i = k then (L.D : ℝ) else 0) := by
      intro k hk
      rw [← key k hk, Finset.mul_sum]
      exact Finset.sum_congr rfl fun j _ => by ring
    rw [Finset.sum_congr rfl this, Finset.sum_eq_single i]
    · simp; ring
    · intro b _ hb; rw [if_neg (Ne.symm hb), mul_zero]
    · intro h; exact absurd hi h
  -- the residual by coefficients
  have hrho : rho S pts l l' g = ∑ i ∈ Finset.range (L.p + 1), g.coeff i * rho S pts l l' (X ^ i) := by
    conv_lhs => rw [g.as_sum_range' (L.p + 1) (by omega)]
    rw [map_sum]
    refine Finset.sum_congr rfl fun i _ => ?_
    rw [← C_mul_X_pow_eq_monomial, ← smul_eq_C_mul, map_smul, smul_eq_mul]
  have hmu : ∀ i ∈ Finset.range (L.p + 1), (mu S L.p L.fact pts l l' i : ℝ) =
      L.fact * (S : ℝ) ^ (L.p + 1) * rho S pts l l' (X ^ i) := by
    intro i hi
    have hi' := Finset.mem_range.mp hi
    exact mu_eq S hS L.p L.fact pts l l' i (by omega) (hA i hi').1
  have hmain : (L.D : ℝ) * (L.fact * (S : ℝ) ^ (L.p + 1)) * rho S pts l l' g =
      ∑ j ∈ Finset.range (L.p + 1), g.eval ((j : ℝ) / L.p) *
        ∑ i ∈ Finset.range (L.p + 1), (L.at j i : ℝ) * (mu S L.p L.fact pts l l' i : ℝ) := by
    rw [hrho, Finset.mul_sum]
    simp only [Finset.mul_sum]
    rw [Finset.sum_comm]
    refine Finset.sum_congr rfl fun i hi => ?_
    rw [hmu i hi]
    calc _ = ((L.D : ℝ) * g.coeff i) * (L.fact * (S : ℝ) ^ (L.p + 1) * rho S pts l l' (X ^ i)) := by ring
      _ = _ := by
        rw [hco i hi, Finset.sum_mul]
        exact Finset.sum_congr rfl fun j _ => by ring
  have hch : (∑ j ∈ Finset.range (L.p + 1), |∑ i ∈ Finset.range (L.p + 1), (L.at j i : ℝ) *
      (mu S L.p L.fact pts l l' i : ℝ)|) * den ≤ num * (L.D * L.fact * (S : ℝ) ^ (L.p + 1)) := by
    have h1 := of_decide_eq_true h
    rw [sumI_eq, sum_map_range] at h1
    have h2 : ((∑ j ∈ Finset.range (L.p + 1), ((sumI ((List.range (L.p + 1)).map fun i => L.at j i *
      ((List.range (L.p + 1)).map (mu S L.p L.fact pts l l')).getD i 0)).natAbs : Int)) * den : Int) ≤
        num * (L.D * L.fact * pw S (L.p + 1)) := h1
    have h3 : ∀ j, ((sumI ((List.range (L.p + 1)).map fun i => L.at j i *
      ((List.range (L.p + 1)).map (mu S L.p L.fact pts l l')).getD i 0)).natAbs : Int) =
        |∑ i ∈ Finset.range (L.p + 1), L.at j i * mu S L.p L.fact pts l l' i| := by
      intro j
      rw [sumI_eq, sum_map_range, Int.natCast_natAbs]
      congr 1
      refine Finset.sum_congr rfl fun i hi => ?_
      have hi' := Finset.mem_range.mp hi
      congr 1
      rw [List.getD_eq_getElem?_getD, List.getElem?_map, List.getElem?_range hi']; rfl
    simp only [h3, pw_eq] at h2
    exact_mod_cast h2
  have hM0 : 0 ≤ M := le_trans (abs_nonneg _) (hM 0 (by simp))
  have habs : |(L.D : ℝ) * (L.fact * (S : ℝ) ^ (L.p + 1)) * rho S pts l l' g| ≤
      M * ∑ j ∈ Finset.range (L.p + 1), |∑ i ∈ Finset.range (L.p + 1), (L.at j i : ℝ) *
      (mu S L.p L.fact pts l l' i : ℝ)| := by
    rw [hmain, Finset.mul_sum]
    refine (Finset.abs_sum_le_sum_abs _ _).trans (Finset.sum_le_sum fun j hj => ?_)
    rw [abs_mul]
    refine mul_le_mul_of_nonneg_right (hM _ ⟨by positivity, ?_⟩) (abs_nonneg _)
    rw [div_le_one hpr]
    have := Finset.mem_range.mp hj
    exact_mod_cast (by omega : j ≤ L.p)
  have hpos : 0 < (L.D : ℝ) * (L.fact * (S : ℝ) ^ (L.p + 1)) := by positivity
  rw [abs_mul, abs_of_pos hpos] at habs
  have : (L.D : ℝ) * (L.fact * (S : ℝ) ^ (L.p + 1)) * |rho S pts l l' g| * den ≤
      (L.D : ℝ) * (L.fact * (S : ℝ) ^ (L.p + 1)) * (num * M) := by
    calc _ ≤ (M * ∑ j ∈ Finset.range (L.p + 1), |∑ i ∈ Finset.range (L.p + 1), (L.at j i : ℝ) *
          (mu S L.p L.fact pts l l' i : ℝ)|) * den := mul_le_mul_of_nonneg_right habs hdr.le
      _ = M * ((∑ j ∈ Finset.range (L.p + 1), |∑ i ∈ Finset.range (L.p + 1), (L.at j i : ℝ) *
          (mu S L.p L.fact pts l l' i : ℝ)|) * den) := by ring
      _ ≤ M * (num * (L.D * L.fact * (S : ℝ) ^ (L.p + 1))) := mul_le_mul_of_nonneg_left hch hM0
      _ = _ := by ring
  have h5 : |rho S pts l l' g| * den ≤ num * M := by
    have h6 : (L.D : ℝ) * (L.fact * (S : ℝ) ^ (L.p + 1)) * (|rho S pts l l' g| * den) ≤
      (L.D : ℝ) * (L.fact * (S : ℝ) ^ (L.p + 1)) * (num * M) := by rw [← mul_assoc]; exact this
    exact le_of_mul_le_mul_left h6 hpos
  rw [div_mul_eq_mul_div, le_div_iff₀ hdr]
  exact h5

end QuESo.Rules
