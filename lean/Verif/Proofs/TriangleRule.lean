import Verif.Model.TriangleRule
import Verif.Proofs.Divergence
import Mathlib.Analysis.SpecialFunctions.Integrals.Basic
import Mathlib.Tactic.FieldSimp

/-!
# The rules for triangles
-/
namespace QuESo.TriRule
open Spec MeasureTheory

/-! ### Integrals of monomials -/

theorem beta_integral (n a : Nat) : (∫ x in (0 : ℝ)..1, x ^ a * (1 - x) ^ n) = (a.factorial * n.factorial : ℝ) / (a + n + 1).factorial := by
  induction n generalizing a with
  | zero =>
    simp only [pow_zero, mul_one, integral_pow, one_pow, Nat.factorial_zero, Nat.cast_one, add_zero]
    rw [Nat.factorial_succ]
    push_cast
    have : (a.factorial : ℝ) ≠ 0 := by exact_mod_cast a.factorial_ne_zero
    field_simp
    simp
  | succ n ih =>
    have h1 : ∀ x : ℝ, x ^ a * (1 - x) ^ (n + 1) = x ^ a * (1 - x) ^ n - x ^ (a + 1) * (1 - x) ^ n := fun x => by ring
    simp only [h1]
    rw [intervalIntegral.integral_sub (Continuous.intervalIntegrable (by fun_prop) _ _) (Continuous.intervalIntegrable (by fun_prop) _ _),
      ih a, ih (a + 1)]
    have e1 : a + 1 + n + 1 = (a + n + 1) + 1 := by omega
    have e2 : a + (n + 1) + 1 = (a + n + 1) + 1 := by omega
    rw [e1, e2, Nat.factorial_succ (a + n + 1), Nat.factorial_succ a, Nat.factorial_succ n]
    push_cast
    have : ((a + n + 1).factorial : ℝ) ≠ 0 := by exact_mod_cast (a + n + 1).factorial_ne_zero
    have h2 : (a : ℝ) + n + 1 + 1 ≠ 0 := by positivity
    field_simp
    ring

theorem monomial_integral (a b : Nat) : (unitTriangle fun x y => x ^ a * y ^ b) = (a.factorial * b.factorial : ℝ) / (a + b + 2).factorial := by
  unfold unitTriangle
  have h1 : ∀ x : ℝ, (∫ y in (0 : ℝ)..(1 - x), x ^ a * y ^ b) = 1 / (b + 1) * (x ^ a * (1 - x) ^ (b + 1)) := by
    intro x
    rw [intervalIntegral.integral_const_mul, integral_pow]
    simp
    ring
  simp only [h1]
  rw [intervalIntegral.integral_const_mul, beta_integral, Nat.factorial_succ b]
  push_cast
  have e : a + (b + 1) + 1 = a + b + 2 := by omega
  rw [e]
  have : (b : ℝ) + 1 ≠ 0 := by positivity
  field_simp

/-! ### Polynomials on the unit triangle -/

/-- The value of a polynomial that is given by its terms. -/
def value (l : List (ℝ × Nat × Nat)) (x y : ℝ) : ℝ := (l.map fun t => t.1 * (x ^ t.2.1 * y ^ t.2.2)).sum

/-- The function is a polynomial of degree at most `d` with coefficients whose absolute values add up to at most `m`. -/
def PolyOn (d : Nat) (m : ℝ) (g : ℝ → ℝ → ℝ) : Prop :=
  ∃ l : List (ℝ × Nat × Nat), (∀ t ∈ l, t.2.1 + t.2.2 ≤ d) ∧ (∀ x y, g x y = value l x y) ∧ (l.map fun t => |t.1|).sum ≤ m

/-- The rule as a sum. -/
noncomputable def ruleSum (qs : List (ℚ × ℚ × ℚ)) (g : ℝ → ℝ → ℝ) : ℝ := (qs.map fun q => (q.2.2 : ℝ) * g q.1 q.2.1).sum

theorem value_continuous (l : List (ℝ × Nat × Nat)) : Continuous fun p : ℝ × ℝ => value l p.1 p.2 := by
  induction l with
  | nil => simp only [value, List.map_nil, List.sum_nil]; fun_prop
  | cons t l ih =>
    simp only [value, List.map_cons, List.sum_cons] at ih ⊢
    fun_prop

/-- The error of a rule for one term. -/
def termError (qs : List (ℚ × ℚ × ℚ)) (a b : Nat) : ℚ :=
  |(qs.map fun q => q.2.2 * (q.1 ^ a * q.2.1 ^ b)).sum - (a.factorial * b.factorial : ℚ) / (a + b + 2).factorial|

theorem ruleSum_monomial (qs : List (ℚ × ℚ × ℚ)) (a b : Nat) :
    |ruleSum qs (fun x y => x ^ a * y ^ b) - unitTriangle fun x y => x ^ a * y ^ b| = (termError qs a b : ℝ) := by
  rw [monomial_integral]
  unfold termError ruleSum
  rw [Rat.cast_abs]
  congr 1
  rw [Rat.cast_sub]
  congr 1
  · rw [← Rat.coe_castHom, map_list_sum, List.map_map]
    congr 1
    apply List.map_congr_left
    intro q _
    simp
  · push_cast; rfl

theorem ruleSum_cons (qs : List (ℚ × ℚ × ℚ)) (t : ℝ × Nat × Nat) (l : List (ℝ × Nat × Nat)) :
    ruleSum qs (value (t :: l)) = t.1 * ruleSum qs (fun x y => x ^ t.2.1 * y ^ t.2.2) + ruleSum qs (value l) := by
  unfold ruleSum
  induction qs with
  | nil => simp
  | cons q qs ih =>
    simp only [List.map_cons, List.sum_cons] at ih ⊢
    rw [ih]
    simp only [value, List.map_cons, List.sum_cons]
    ring

theorem integral_cons (t : ℝ × Nat × Nat) (l : List (ℝ × Nat × Nat)) :
    unitTriangle (value (t :: l)) = t.1 * (unitTriangle fun x y => x ^ t.2.1 * y ^ t.2.2) + unitTriangle (value l) := by
  rw [← tri_smul, ← tri_add (by fun_prop) (value_continuous l)]
  rfl

/-- The error of a rule for a polynomial. -/
theorem rule_error {qs : List (ℚ × ℚ × ℚ)} {d : Nat} {tol : ℚ} (ht : ∀ a b, a + b ≤ d → termError qs a b ≤ tol) {m : ℝ}
    {g : ℝ → ℝ → ℝ} (hg : PolyOn d m g) : |ruleSum qs g - unitTriangle g| ≤ tol * m := by
  obtain ⟨l, hl, he, hs⟩ := hg
  have hgl : g = value l := by ext x y; exact he x y
  subst hgl
  have h0 : (0 : ℝ) ≤ tol := by
    have := ht 0 0 (Nat.zero_le _)
    have h' : (0 : ℚ) ≤ termError qs 0 0 := abs_nonneg _
    exact_mod_cast h'.trans this
  refine le_trans ?_ (mul_le_mul_of_nonneg_left hs h0)
  clear hs he
  induction l with
  | nil => simp [ruleSum, value, unitTriangle]
  | cons t l ih =>
    rw [ruleSum_cons, integral_cons]
    simp only [List.map_cons, List.sum_cons]
    have h1 := ih (fun t ht => hl t (List.mem_cons_of_mem _ ht))
    have h2 : |ruleSum qs (fun x y => x ^ t.2.1 * y ^ t.2.2) - unitTriangle fun x y => x ^ t.2.1 * y ^ t.2.2| ≤ tol := by
      rw [ruleSum_monomial]
      exact_mod_cast ht _ _ (hl t List.mem_cons_self)
    have e : t.1 * ruleSum qs (fun x y => x ^ t.2.1 * y ^ t.2.2) + ruleSum qs (value l) -
        (t.1 * (unitTriangle fun x y => x ^ t.2.1 * y ^ t.2.2) + unitTriangle (value l)) =
        t.1 * (ruleSum qs (fun x y => x ^ t.2.1 * y ^ t.2.2) - unitTriangle fun x y => x ^ t.2.1 * y ^ t.2.2) +
          (ruleSum qs (value l) - unitTriangle (value l)) := by ring
    rw [e]
    refine (abs_add_le _ _).trans ?_
    rw [abs_mul]
    have := mul_le_mul_of_nonneg_left h2 (abs_nonneg t.1)
    nlinarith

theorem PolyOn.mono {d d' : Nat} {m m' : ℝ} {g : ℝ → ℝ → ℝ} (h : PolyOn d m g) (hd : d ≤ d') (hm : m ≤ m') : PolyOn d' m' g := by
  obtain ⟨l, hl, he, hs⟩ := h
  exact ⟨l, fun t ht => (hl t ht).trans hd, he, hs.trans hm⟩

theorem PolyOn.const (c : ℝ) : PolyOn 0 |c| fun _ _ => c :=
  ⟨[(c, 0, 0)], by simp, by simp [value], by simp⟩

theorem PolyOn.add {d : Nat} {m m' : ℝ} {g h : ℝ → ℝ → ℝ} (hg : PolyOn d m g) (hh : PolyOn d m' h) :
    PolyOn d (m + m') fun x y => g x y + h x y := by
  obtain ⟨l, hl, he, hs⟩ := hg
  obtain ⟨l', hl', he', hs'⟩ := hh
  refine ⟨l ++ l', ?_, ?_, ?_⟩
  · intro t ht
    rcases List.mem_append.1 ht with h | h
    · exact hl t h
    · exact hl' t h
  · intro x y
    show g x y + h x y = _
    rw [he, he']; simp [value]
  · simp only [List.map_append, List.sum_append]
    linarith

theorem PolyOn.smul {d : Nat} {m : ℝ} {g : ℝ → ℝ → ℝ} (c : ℝ) (hg : PolyOn d m g) : PolyOn d (|c| * m) fun x y => c * g x y := by
  obtain ⟨l, hl, he, hs⟩ := hg
  refine ⟨l.map fun t => (c * t.1, t.2), ?_, ?_, ?_⟩
  · intro t ht
    obtain ⟨u, hu, rfl⟩ := List.mem_map.1 ht
    exact hl u hu
  · intro x y
    show c * g x y = _
    rw [he]
    unfold value
    rw [List.map_map, ← List.sum_map_mul_left]
    congr 1
    apply List.map_congr_left
    intro t _
    simp only [Function.comp]; ring
  · rw [List.map_map]
    have : ((fun t : ℝ × Nat × Nat => |t.1|) ∘ fun t : ℝ × Nat × Nat => (c * t.1, t.2)) = fun t => |c| * |t.1| := by
      ext t; simp [abs_mul]
    rw [this, List.sum_map_mul_left]
    exact mul_le_mul_of_nonneg_left hs (abs_nonneg c)

theorem PolyOn.zero (d : Nat) : PolyOn d 0 fun _ _ => 0 := ⟨[], by simp, by simp [value], by simp⟩

theorem PolyOn.nonneg {d : Nat} {m : ℝ} {g : ℝ → ℝ → ℝ} (hg : PolyOn d m g) : 0 ≤ m := by
  obtain ⟨l, _, _, hs⟩ := hg
  refine le_trans ?_ hs
  apply List.sum_nonneg
  intro x hx
  obtain ⟨t, _, rfl⟩ := List.mem_map.1 hx
  exact abs_nonneg _

theorem PolyOn.mul {d d' : Nat} {m m' : ℝ} {g h : ℝ → ℝ → ℝ} (hg : PolyOn d m g) (hh : PolyOn d' m' h) :
    PolyOn (d + d') (m * m') fun x y => g x y * h x y := by
  obtain ⟨l, hl, he, hs⟩ := hg
  refine PolyOn.mono ?_ le_rfl (mul_le_mul_of_nonneg_right hs hh.nonneg)
  have hgl : g = value l := by ext x y; exact he x y
  subst hgl
  clear hs he
  induction l with
  | nil => simpa [value] using PolyOn.zero _
  | cons t l ih =>
    have h1 := ih (fun t ht => hl t (List.mem_cons_of_mem _ ht))
    have hm : PolyOn (d + d') m' fun x y => x ^ t.2.1 * y ^ t.2.2 * h x y := by
      obtain ⟨k, hk, hke, hks⟩ := hh
      refine ⟨k.map fun u => (u.1, t.2.1 + u.2.1, t.2.2 + u.2.2), ?_, ?_, ?_⟩
      · intro u hu
        obtain ⟨w, hw, rfl⟩ := List.mem_map.1 hu
        have h2 := hk w hw
        have h3 := hl t List.mem_cons_self
        dsimp only
        omega
      · intro x y
        show x ^ t.2.1 * y ^ t.2.2 * h x y = _
        rw [hke]
        unfold value
        rw [List.map_map, ← List.sum_map_mul_left]
        congr 1
        apply List.map_congr_left
        intro u _
        simp only [Function.comp]
        ring
      · rw [List.map_map]
        exact hks
    have := (hm.smul t.1).add h1
    have e : |t.1| * m' + (l.map fun t => |t.1|).sum * m' = ((t :: l).map fun t => |t.1|).sum * m' := by
      simp only [List.map_cons, List.sum_cons]; ring
    rw [e] at this
    have e2 : (fun x y => t.1 * (x ^ t.2.1 * y ^ t.2.2 * h x y) + value l x y * h x y) = fun x y => value (t :: l) x y * h x y := by
      ext x y
      simp only [value, List.map_cons, List.sum_cons]; ring
    rw [e2] at this
    exact this

theorem PolyOn.pow {d : Nat} {m : ℝ} {g : ℝ → ℝ → ℝ} (hg : PolyOn d m g) (n : Nat) : PolyOn (n * d) (m ^ n) fun x y => g x y ^ n := by
  induction n with
  | zero =>
    have := PolyOn.const 1
    simpa using this
  | succ n ih =>
    have := ih.mul hg
    rw [← pow_succ] at this
    have e : (n + 1) * d = n * d + d := by ring
    rw [e]
    simpa only [pow_succ] using this

/-- A number that varies linearly over the triangle. -/
theorem PolyOn.linear {a b c m : ℝ} (ha : |a| ≤ m) (hb : |b| ≤ m) (hc : |c| ≤ m) :
    PolyOn 1 (5 * m) fun r s => a + r * (b - a) + s * (c - a) := by
  refine ⟨[(a, 0, 0), (b - a, 1, 0), (c - a, 0, 1)], by simp, ?_, ?_⟩
  · intro x y
    simp only [value, List.map_cons, List.map_nil, List.sum_cons, List.sum_nil, pow_zero, pow_one]
    ring
  · simp only [List.map_cons, List.map_nil, List.sum_cons, List.sum_nil]
    have h1 := abs_sub b a
    have h2 := abs_sub c a
    linarith

theorem PolyOn.congr {d : Nat} {m : ℝ} {g h : ℝ → ℝ → ℝ} (hg : PolyOn d m g) (e : ∀ x y, h x y = g x y) : PolyOn d m h := by
  have : h = g := by ext x y; exact e x y
  rw [this]; exact hg

/-! ### The tables -/

theorem points1_error : ∀ a b, a + b ≤ 1 → termError points1 a b ≤ 0 := by
  have : ∀ a < 2, ∀ b < 2, a + b ≤ 1 → termError points1 a b ≤ 0 := by decide +kernel
  intro a b h; exact this a (by omega) b (by omega) h

theorem points2_error : ∀ a b, a + b ≤ 2 → termError points2 a b ≤ 0 := by
  have : ∀ a < 3, ∀ b < 3, a + b ≤ 2 → termError points2 a b ≤ 0 := by decide +kernel
  intro a b h; exact this a (by omega) b (by omega) h

theorem points3_error : ∀ a b, a + b ≤ 4 → termError points3 a b ≤ 1 / 10 ^ 15 := by
  have : ∀ a < 5, ∀ b < 5, a + b ≤ 4 → termError points3 a b ≤ 1 / 10 ^ 15 := by decide +kernel
  intro a b h; exact this a (by omega) b (by omega) h

theorem points4_error : ∀ a b, a + b ≤ 6 → termError points4 a b ≤ 1 / 10 ^ 20 := by
  have : ∀ a < 7, ∀ b < 7, a + b ≤ 6 → termError points4 a b ≤ 1 / 10 ^ 20 := by decide +kernel
  intro a b h; exact this a (by omega) b (by omega) h

end QuESo.TriRule
