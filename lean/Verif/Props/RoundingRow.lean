import Verif.Model.RoundingRow
import Verif.Props.RoundingClipper

/-!
# C18: the weights of rows of elements in floating-point arithmetic
-/
namespace QuESo.Props
open QuESo.Spec QuESo.Round

section
variable {rnd : ℚ → ℚ} {eps : ℚ} {big : Nat}

theorem rnd_le_up (hr : IsRounding rnd eps big) (he : eps ≤ 1 / 1000) {x : ℚ} (h : 0 ≤ x) : rnd x ≤ 1001 / 1000 * x ∧ 999 / 1000 * x ≤ rnd x := by
  have e := abs_le.1 (hr.error x)
  rw [abs_of_nonneg h] at e
  have := mul_le_mul_of_nonneg_right he h
  constructor <;> linarith

/-- **C18** (rounding).  For every row of at least two elements and every position in it, and every machine arithmetic that keeps the order and has relative error at most 1/1000: the weight is defined (the
error "Value too low" is not raised), at least an eleventh of the row length and at most the rounded row length. -/
theorem C18_linear_function_rounded (hr : IsRounding rnd eps big) (hb : 1 ≤ big) (he : eps ≤ 1 / 1000) (fused : Bool) {zt : ℚ} (hz : zt ≤ 1 / 10) {x num : Nat} (hn : 2 ≤ num) (hx : x < num) :
    ∃ v, linearFunctionR rnd fused zt x num = some v ∧ (num : ℚ) / 11 ≤ v ∧ v ≤ rnd num := by
  have e0 := eps_nonneg hr
  have hone : rnd 1 = 1 := by simpa using hr.whole 1 hb
  set A := rnd ((num - 1 : Nat) : ℚ) with hA
  have hA1 : 1 ≤ A := by
    have := hr.mono 1 ((num - 1 : Nat) : ℚ) (by exact_mod_cast (by omega : 1 ≤ num - 1))
    rwa [hone] at this
  set c := rnd (A / 2) with hc
  obtain ⟨c1, c2⟩ := rnd_le_up hr he (by linarith : 0 ≤ A / 2)
  rw [← hc] at c1 c2
  have hX0 : 0 ≤ rnd (x : ℚ) := rnd_nonneg hr (by positivity)
  have hXA : rnd (x : ℚ) ≤ A := hr.mono _ _ (by exact_mod_cast (by omega : x ≤ num - 1))
  have hd : |c - rnd (x : ℚ)| ≤ 1001 / 2000 * A := by rw [abs_le]; constructor <;> linarith
  set delta := |rnd (c - rnd (x : ℚ))| with hdelta
  have hd0 : 0 ≤ delta := abs_nonneg _
  have hd1 : delta ≤ 1002002 / 2000000 * A := by
    have e := hr.error (c - rnd (x : ℚ))
    have h1 := abs_sub_abs_le_abs_sub (rnd (c - rnd (x : ℚ))) (c - rnd (x : ℚ))
    have h2 := mul_le_mul_of_nonneg_right he (abs_nonneg (c - rnd (x : ℚ)))
    rw [← hdelta] at h1
    linarith
  have hcp : 0 < c := by linarith
  obtain ⟨n1, n2⟩ := rnd_le_up hr he (by norm_num : (0 : ℚ) ≤ 9 / 10)
  have hq0 : 0 ≤ rnd (9 / 10) / c := div_nonneg (by linarith) hcp.le
  obtain ⟨s1, s2⟩ := rnd_le_up hr he hq0
  set slope := rnd (rnd (9 / 10) / c) with hslope
  have hs0 : 0 ≤ slope := rnd_nonneg hr hq0
  have hsc : slope * A ≤ 1807 / 1000 := by
    have h1 : rnd (9 / 10) / c * c = rnd (9 / 10) := div_mul_cancel₀ _ hcp.ne'
    have h2 : rnd (9 / 10) / c * (999 / 2000 * A) ≤ rnd (9 / 10) / c * c := mul_le_mul_of_nonneg_left (by linarith) hq0
    have h3 := mul_le_mul_of_nonneg_right s1 (by linarith : 0 ≤ A)
    linarith
  have hp0 : 0 ≤ slope * delta := mul_nonneg hs0 hd0
  have hp1 : slope * delta ≤ 9055 / 10000 := by
    have := mul_le_mul_of_nonneg_left hd1 hs0
    linarith
  obtain ⟨r1, -⟩ := rnd_le_up hr he hp0
  have hr0 := rnd_nonneg hr hp0
  set factor := if fused then rnd (1 - slope * delta) else rnd (1 - rnd (slope * delta)) with hfac
  have hf : 93 / 1000 ≤ factor ∧ factor ≤ 1 := by
    rw [hfac]
    split
    · have m := hr.mono (1 - slope * delta) 1 (by linarith)
      rw [hone] at m
      have := (rnd_le_up hr he (by linarith : 0 ≤ 1 - slope * delta)).2
      exact ⟨by linarith, m⟩
    · have m := hr.mono (1 - rnd (slope * delta)) 1 (by linarith)
      rw [hone] at m
      have := (rnd_le_up hr he (by linarith : 0 ≤ 1 - rnd (slope * delta))).2
      exact ⟨by linarith, m⟩
  have hnum : (2 : ℚ) ≤ num := by exact_mod_cast hn
  obtain ⟨-, m2⟩ := rnd_le_up hr he (by linarith : (0 : ℚ) ≤ num)
  have hv0 : 0 ≤ factor * rnd (num : ℚ) := mul_nonneg (by linarith [hf.1]) (by linarith)
  have hv1 : 93 / 1000 * rnd (num : ℚ) ≤ factor * rnd (num : ℚ) := mul_le_mul_of_nonneg_right hf.1 (by linarith)
  have hv2 : factor * rnd (num : ℚ) ≤ 1 * rnd (num : ℚ) := mul_le_mul_of_nonneg_right hf.2 (by linarith)
  have hlow := (rnd_le_up hr he hv0).2
  have hup := hr.mono _ _ hv2
  rw [one_mul, hr.twice] at hup
  refine ⟨rnd (factor * rnd (num : ℚ)), ?_, by linarith, hup⟩
  unfold linearFunctionR
  simp only [← hA, ← hc, ← hdelta, ← hslope, ← hfac]
  rw [if_neg (by linarith)]

end

/-- **C18** (double precision).  With the tolerance of the code and rows of up to 2^53 elements the weight is between an eleventh of the row length and the row length. -/
theorem C18_linear_function_binary64 (fused : Bool) {x num : Nat} (hn : 2 ≤ num) (hx : x < num) (hbig : num ≤ 2 ^ 53) :
    ∃ v, linearFunctionR binary64 fused zeroTol x num = some v ∧ (num : ℚ) / 11 ≤ v ∧ v ≤ num := by
  have hz := zeroTol_bounds.2
  obtain ⟨v, h1, h2, h3⟩ := C18_linear_function_rounded binary64_isRounding (by norm_num) (by norm_num) fused (zt := zeroTol) (by linarith) hn hx
  rw [binary64_isRounding.whole num hbig] at h3
  exact ⟨v, h1, h2, h3⟩

/-- The ends of a row of three elements: 3/10 up to rounding. -/
example : (linearFunctionR binary64 false zeroTol 0 3).any (fun v => decide (v ≠ 3 / 10 ∧ 299 / 1000 < v ∧ v < 301 / 1000)) = true := by decide +kernel

end QuESo.Props
