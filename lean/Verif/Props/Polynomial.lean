import Verif.Model.Polynomial
import Mathlib.Analysis.SpecialFunctions.Integrals.Basic
import Mathlib.Tactic.FieldSimp
import Mathlib.Tactic.IntervalCases

/-!
# C33: Legendre polynomials and their integrals
-/
namespace QuESo.Poly
open intervalIntegral

theorem power_eq {K : Type _} [Field K] (x : K) (p : Nat) : power x p = x ^ p := by
  have h : ∀ p (r : K), powerLoop x p r = r * x ^ p := by
    intro p
    induction p with
    | zero => simp [powerLoop]
    | succ p ih => intro r; rw [powerLoop, ih, pow_succ']; ring
  rw [power, h, one_mul]

/-- C33: the functions are the Legendre polynomials on `(a, b)`: order 0 is the constant 1, order 1 is the linear function
with the values -1 and 1 at `a` and `b`, and the orders up to 8 satisfy Bonnet's recurrence. -/
theorem C33_recurrence {K : Type _} [Field K] [CharZero K] (a b x : K) (h : a ≠ b) :
    fx x 0 a b = 1 ∧ (fx a 1 a b = -1 ∧ fx b 1 a b = 1 ∧ fx x 1 a b = (2 * x - a - b) / (b - a)) ∧
    ∀ n : Nat, 1 ≤ n → n ≤ 7 → (n + 1 : K) * fx x (n + 1) a b = (2 * n + 1) * fx x 1 a b * fx x n a b - n * fx x (n - 1) a b := by
  have hba : b - a ≠ 0 := sub_ne_zero.2 h.symm
  refine ⟨rfl, ⟨?_, ?_, rfl⟩, fun n h1 h2 => ?_⟩
  · simp only [fx]; field_simp; ring
  · simp only [fx]; field_simp; ring
  · interval_cases n <;> simp only [fx, power_eq] <;> push_cast <;> ring

/-- C33: orders above 8 are not supported: both functions are zero. -/
theorem C33_above_eight {K : Type _} [Field K] (a b x : K) (n : Nat) (hn : 8 < n) : fx x n a b = 0 ∧ fxInt x n a b = 0 := by
  match n, hn with
  | n + 9, _ => exact ⟨rfl, rfl⟩

/-- C33: on the interval the values of the polynomials lie between -1 and 1.  (They are sums of Chebyshev polynomials with
positive coefficients that add up to one.) -/
theorem C33_bound {K : Type _} [Field K] [LinearOrder K] [IsStrictOrderedRing K] (a b x : K) (h : a < b) (ha : a ≤ x) (hb : x ≤ b)
    (n : Nat) : |fx x n a b| ≤ 1 := by
  have hba : 0 < b - a := sub_pos.2 h
  have ht : |(2 * x - a - b) / (b - a)| ≤ 1 := by
    rw [abs_le, le_div_iff₀ hba, div_le_iff₀ hba]
    constructor <;> linarith
  generalize htt : (2 * x - a - b) / (b - a) = t at ht
  have hsq : 0 ≤ 1 - t ^ 2 := by have := (sq_le_one_iff_abs_le_one t).2 ht; linarith
  have key : ∀ T U : K, 1 - T ^ 2 = (1 - t ^ 2) * U ^ 2 → |T| ≤ 1 := by
    intro T U hTU
    rw [← sq_le_one_iff_abs_le_one]
    have : 0 ≤ (1 - t ^ 2) * U ^ 2 := mul_nonneg hsq (sq_nonneg _)
    linarith
  have T2 : |(-1) * t ^ 0 + (2) * t ^ 2| ≤ 1 := key _ ((2) * t ^ 1) (by ring)
  have T3 : |(-3) * t ^ 1 + (4) * t ^ 3| ≤ 1 := key _ ((-1) * t ^ 0 + (4) * t ^ 2) (by ring)
  have T4 : |(1) * t ^ 0 + (-8) * t ^ 2 + (8) * t ^ 4| ≤ 1 := key _ ((-4) * t ^ 1 + (8) * t ^ 3) (by ring)
  have T5 : |(5) * t ^ 1 + (-20) * t ^ 3 + (16) * t ^ 5| ≤ 1 := key _ ((1) * t ^ 0 + (-12) * t ^ 2 + (16) * t ^ 4) (by ring)
  have T6 : |(-1) * t ^ 0 + (18) * t ^ 2 + (-48) * t ^ 4 + (32) * t ^ 6| ≤ 1 := key _ ((6) * t ^ 1 + (-32) * t ^ 3 + (32) * t ^ 5) (by ring)
  have T7 : |(-7) * t ^ 1 + (56) * t ^ 3 + (-112) * t ^ 5 + (64) * t ^ 7| ≤ 1 := key _ ((-1) * t ^ 0 + (24) * t ^ 2 + (-80) * t ^ 4 + (64) * t ^ 6) (by ring)
  have T8 : |(1) * t ^ 0 + (-32) * t ^ 2 + (160) * t ^ 4 + (-256) * t ^ 6 + (128) * t ^ 8| ≤ 1 := key _ ((-8) * t ^ 1 + (80) * t ^ 3 + (-192) * t ^ 5 + (128) * t ^ 7) (by ring)
  simp only [abs_le] at *
  match n with
  | 0 => simp [fx]
  | 1 => simp only [fx, htt]; exact ht
  | 2 => simp only [fx, htt, power_eq]; constructor <;> linarith
  | 3 => simp only [fx, htt, power_eq]; constructor <;> linarith
  | 4 => simp only [fx, htt, power_eq]; constructor <;> linarith
  | 5 => simp only [fx, htt, power_eq]; constructor <;> linarith
  | 6 => simp only [fx, htt, power_eq]; constructor <;> linarith
  | 7 => simp only [fx, htt, power_eq]; constructor <;> linarith
  | 8 => simp only [fx, htt, power_eq]; constructor <;> linarith
  | n + 9 => simp [fx]

/-- C33: the integral function is an antiderivative. -/
theorem C33_antiderivative (a b x : ℝ) (h : a ≠ b) (n : Nat) :
    HasDerivAt (fun y => fxInt y n a b) (fx x n a b) x := by
  have hab : a - b ≠ 0 := sub_ne_zero.2 h
  have hba : b - a = -(a - b) := by ring
  have hx : 2 * x - a - b = -(a + b - 2 * x) := by ring
  have hpow : ∀ k : Nat, HasDerivAt (fun y : ℝ => (a + b - 2 * y) ^ k) (k * (a + b - 2 * x) ^ (k - 1) * (-2)) x := by
    intro k
    have h1 : HasDerivAt (fun y : ℝ => a + b - 2 * y) (-2) x := by
      have := ((hasDerivAt_id x).const_mul 2).const_sub (a + b)
      simpa using this
    exact h1.fun_pow k
  have hid : HasDerivAt (fun y : ℝ => y) 1 x := hasDerivAt_id x
  match n with
  | 0 => exact hid
  | 1 =>
    simp only [fxInt, fx, power_eq, hba, hx]
    exact ((hpow 2).neg.div_const _).congr_deriv (by push_cast; field_simp; ring)
  | 2 =>
    simp only [fxInt, fx, power_eq, hba, hx]
    exact ((hid.neg.div_const 2).sub ((hpow 3).div_const _)).congr_deriv (by push_cast; field_simp; ring)
  | 3 =>
    simp only [fxInt, fx, power_eq, hba, hx]
    exact ((((hpow 2).const_mul 3).div_const _).sub (((hpow 4).const_mul 5).div_const _)).congr_deriv (by push_cast; field_simp; ring)
  | 4 =>
    simp only [fxInt, fx, power_eq, hba, hx]
    exact ((((hid.const_mul 3).div_const 8).add (((hpow 3).const_mul 5).div_const _)).sub
      (((hpow 5).const_mul 7).div_const _)).congr_deriv (by push_cast; field_simp; ring)
  | 5 =>
    simp only [fxInt, fx, power_eq, hba, hx]
    exact (((((hpow 4).const_mul 35).div_const _).sub (((hpow 2).const_mul 15).div_const _)).sub
      (((hpow 6).const_mul 21).div_const _)).congr_deriv (by push_cast; field_simp; ring)
  | 6 =>
    simp only [fxInt, fx, power_eq, hba, hx]
    exact ((((((hpow 5).const_mul 63).div_const _).sub (((hpow 3).const_mul 35).div_const _)).sub ((hid.const_mul 5).div_const 16)).sub
      (((hpow 7).const_mul 33).div_const _)).congr_deriv (by push_cast; field_simp; ring)
  | 7 =>
    simp only [fxInt, fx, power_eq, hba, hx]
    exact ((((((hpow 2).const_mul 35).div_const _).sub (((hpow 4).const_mul 315).div_const _)).add (((hpow 6).const_mul 231).div_const _)).sub
      (((hpow 8).const_mul 429).div_const _)).congr_deriv (by push_cast; field_simp; ring)
  | 8 =>
    simp only [fxInt, fx, power_eq, hba, hx]
    exact (((((((hid.const_mul 35).div_const 128).add (((hpow 3).const_mul 105).div_const _)).sub (((hpow 5).const_mul 693).div_const _)).add
      (((hpow 7).const_mul 429).div_const _))).sub (((hpow 9).const_mul 715).div_const _)).congr_deriv (by push_cast; field_simp; ring)
  | n + 9 => exact hasDerivAt_const x 0

/-- C33: the integral of the polynomial over any interval is the difference of the integral function. -/
theorem C33_integral (a b c d : ℝ) (h : a ≠ b) (n : Nat) : ∫ x in c..d, fx x n a b = fxInt d n a b - fxInt c n a b := by
  refine integral_eq_sub_of_hasDerivAt (fun x _ => C33_antiderivative a b x h n) (Continuous.intervalIntegrable ?_ _ _)
  match n with
  | 0 | 1 | 2 | 3 | 4 | 5 | 6 | 7 | 8 => simp only [fx, power_eq]; fun_prop
  | n + 9 => exact continuous_const

/-- Value of the polynomial with the given coefficients. -/
noncomputable def evalL : List ℚ → ℝ → ℝ
  | [], _ => 0
  | c :: cs, t => c + t * evalL cs t

/-- Sum of coefficient lists. -/
def addL : List ℚ → List ℚ → List ℚ
  | [], l => l
  | l, [] => l
  | c :: cs, d :: ds => (c + d) :: addL cs ds

/-- Product of coefficient lists. -/
def mulL : List ℚ → List ℚ → List ℚ
  | [], _ => []
  | c :: cs, l => addL (l.map (c * ·)) (0 :: mulL cs l)

/-- Integral over (-1, 1) of the polynomial times `t ^ j`. -/
def intL : Nat → List ℚ → ℚ
  | _, [] => 0
  | j, c :: cs => c * ((1 - (-1) ^ (j + 1)) / (j + 1)) + intL (j + 1) cs

theorem evalL_add (t : ℝ) : ∀ l r, evalL (addL l r) t = evalL l t + evalL r t
  | [], r => by simp [addL, evalL]
  | c :: cs, [] => by simp [addL, evalL]
  | c :: cs, d :: ds => by simp only [addL, evalL, evalL_add t cs ds]; push_cast; ring

theorem evalL_scale (t : ℝ) (c : ℚ) : ∀ l, evalL (l.map (c * ·)) t = c * evalL l t
  | [] => by simp [evalL]
  | d :: ds => by simp only [List.map_cons, evalL, evalL_scale t c ds]; push_cast; ring

theorem evalL_mul (t : ℝ) : ∀ l r, evalL (mulL l r) t = evalL l t * evalL r t
  | [], r => by simp [mulL, evalL]
  | c :: cs, r => by
    simp only [mulL, evalL_add, evalL_scale, evalL, evalL_mul t cs r]; push_cast; ring

theorem continuous_evalL : ∀ l, Continuous (evalL l)
  | [] => continuous_const
  | c :: cs => continuous_const.add (continuous_id.mul (continuous_evalL cs))

theorem integral_evalL : ∀ (l : List ℚ) (j : Nat), ∫ t in (-1 : ℝ)..1, t ^ j * evalL l t = intL j l
  | [], j => by simp [evalL, intL]
  | c :: cs, j => by
    have h : ∀ t : ℝ, t ^ j * evalL (c :: cs) t = c * t ^ j + t ^ (j + 1) * evalL cs t := fun t => by rw [evalL]; ring
    simp only [h]
    rw [integral_add, integral_evalL cs (j + 1), integral_const_mul, integral_pow, intL]
    · push_cast
      simp
    · exact (continuous_const.mul (continuous_pow j)).intervalIntegrable _ _
    · exact ((continuous_pow (j + 1)).mul (continuous_evalL cs)).intervalIntegrable _ _

/-- Coefficients of the Legendre polynomials. -/
def coeffs : Nat → List ℚ
  | 0 => [1]
  | 1 => [0, 1]
  | 2 => [-1 / 2, 0, 3 / 2]
  | 3 => [0, -3 / 2, 0, 5 / 2]
  | 4 => [3 / 8, 0, -30 / 8, 0, 35 / 8]
  | 5 => [0, 15 / 8, 0, -70 / 8, 0, 63 / 8]
  | 6 => [-5 / 16, 0, 105 / 16, 0, -315 / 16, 0, 231 / 16]
  | 7 => [0, -35 / 16, 0, 315 / 16, 0, -693 / 16, 0, 429 / 16]
  | 8 => [35 / 128, 0, -1260 / 128, 0, 6930 / 128, 0, -12012 / 128, 0, 6435 / 128]
  | _ => []

theorem fx_eq (x : ℝ) (n : Nat) (a b : ℝ) : fx x n a b = evalL (coeffs n) ((2 * x - a - b) / (b - a)) := by
  match n with
  | 0 | 1 | 2 | 3 | 4 | 5 | 6 | 7 | 8 => simp only [fx, power_eq, coeffs, evalL]; push_cast; ring
  | n + 9 => rfl

theorem intL_coeffs : ∀ m ≤ 8, ∀ n ≤ 8, intL 0 (mulL (coeffs m) (coeffs n)) = if m = n then 2 / (2 * (n : ℚ) + 1) else 0 := by
  decide +kernel

/-- C33: the polynomials of orders up to 8 are orthogonal on `(a, b)`, and the integral of the square is
`(b - a) / (2 n + 1)`. -/
theorem C33_orthogonal (a b : ℝ) (h : a ≠ b) (m n : Nat) (hm : m ≤ 8) (hn : n ≤ 8) :
    ∫ x in a..b, fx x m a b * fx x n a b = if m = n then (b - a) / (2 * n + 1) else 0 := by
  have hba : b - a ≠ 0 := sub_ne_zero.2 h.symm
  have e : ∀ x, fx x m a b * fx x n a b = evalL (mulL (coeffs m) (coeffs n)) (2 / (b - a) * x + -(a + b) / (b - a)) := by
    intro x
    rw [fx_eq, fx_eq, evalL_mul, show (2 * x - a - b) / (b - a) = 2 / (b - a) * x + -(a + b) / (b - a) by field_simp; ring]
  simp only [e]
  rw [integral_comp_mul_add (fun t => evalL (mulL (coeffs m) (coeffs n)) t) (div_ne_zero two_ne_zero hba),
    show 2 / (b - a) * a + -(a + b) / (b - a) = -1 by field_simp; ring, show 2 / (b - a) * b + -(a + b) / (b - a) = 1 by field_simp; ring]
  have := integral_evalL (mulL (coeffs m) (coeffs n)) 0
  simp only [pow_zero, one_mul] at this
  rw [this, intL_coeffs m hm n hn]
  split
  · push_cast; rw [smul_eq_mul]; field_simp
  · simp

/-- The orders used for quadratic elements on the interval (0, 2): values, and a product that integrates to zero. -/
example : fx (1 / 2 : ℚ) 2 0 2 = -1 / 8 ∧ fxInt (1 / 2 : ℚ) 2 0 2 = -5 / 16 ∧ fx (2 : ℚ) 8 0 2 = 1 := by decide +kernel

end QuESo.Poly
