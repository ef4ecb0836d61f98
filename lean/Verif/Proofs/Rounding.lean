import Verif.Model.Rounding
import Verif.Spec.Rounding
import Mathlib.Tactic.Linarith
import Mathlib.Tactic.Ring
import Mathlib.Tactic.Positivity
import Mathlib.Tactic.NormNum
import Mathlib.Tactic.FieldSimp

/-!
# IEEE 754 double precision is a rounding in the sense of the specification
-/
namespace QuESo.Round
open QuESo.Spec

theorem halfEven_floor (x : ℚ) : ⌊x⌋ ≤ halfEven x ∧ halfEven x ≤ ⌊x⌋ + 1 := by
  unfold halfEven
  split
  · omega
  · split
    · omega
    · split <;> omega

theorem halfEven_mono {x y : ℚ} (h : x ≤ y) : halfEven x ≤ halfEven y := by
  have hf : ⌊x⌋ ≤ ⌊y⌋ := Int.floor_le_floor h
  rcases hf.lt_or_eq with hlt | he
  · have := (halfEven_floor x).2
    have := (halfEven_floor y).1
    omega
  · unfold halfEven
    rw [he]
    have : x - (⌊y⌋ : ℚ) ≤ y - ⌊y⌋ := by linarith
    repeat' split
    all_goals first | omega | (exfalso; linarith)

theorem halfEven_int (z : ℤ) : halfEven (z : ℚ) = z := by
  unfold halfEven
  simp

theorem halfEven_error (x : ℚ) : |(halfEven x : ℚ) - x| ≤ 1 / 2 := by
  have h0 := Int.floor_le x
  have h1 := Int.lt_floor_add_one x
  rw [abs_le]
  unfold halfEven
  repeat' split
  all_goals (push_cast; constructor <;> linarith)

theorem ulp_pos (x : ℚ) : 0 < ulp x := zpow_pos (by norm_num) _

theorem two_le {x : ℚ} (hx : 0 < x) : (2 : ℚ) ^ 52 * ulp x ≤ x := by
  have h := Int.zpow_log_le_self (b := 2) (by norm_num) hx
  have e : (2 : ℚ) ^ 52 * ulp x = (2 : ℚ) ^ Int.log 2 x := by
    unfold ulp
    rw [← zpow_natCast (2 : ℚ) 52, ← zpow_add₀ (by norm_num)]
    congr 1
    push_cast; ring
  rw [e]; exact_mod_cast h

theorem lt_two {x : ℚ} : x < (2 : ℚ) ^ 53 * ulp x := by
  have h := Int.lt_zpow_succ_log_self (b := 2) (by norm_num) x
  have e : (2 : ℚ) ^ 53 * ulp x = (2 : ℚ) ^ (Int.log 2 x + 1) := by
    unfold ulp
    rw [← zpow_natCast (2 : ℚ) 53, ← zpow_add₀ (by norm_num)]
    congr 1
    push_cast; ring
  rw [e]; exact_mod_cast h

theorem b64_pos {x : ℚ} (hx : 0 < x) : binary64 x = halfEven (x / ulp x) * ulp x := by
  unfold binary64; rw [if_neg hx.ne', if_pos hx]

theorem b64_neg (x : ℚ) : binary64 (-x) = -binary64 x := by
  unfold binary64
  rcases lt_trichotomy x 0 with h | h | h
  · rw [if_neg (by linarith), if_pos (by linarith), if_neg h.ne, if_neg (by linarith)]; simp
  · simp [h]
  · rw [if_neg (by linarith), if_neg (by linarith), if_neg h.ne', if_pos h]; simp

theorem b64_zero : binary64 0 = 0 := by simp [binary64]

theorem b64_bounds {x : ℚ} (hx : 0 < x) : (2 : ℚ) ^ 52 * ulp x ≤ binary64 x ∧ binary64 x ≤ (2 : ℚ) ^ 53 * ulp x := by
  have hu := ulp_pos x
  rw [b64_pos hx]
  constructor
  · refine mul_le_mul_of_nonneg_right ?_ hu.le
    have h1 : ((2 ^ 52 : ℤ) : ℚ) ≤ x / ulp x := by rw [le_div_iff₀ hu]; push_cast; exact two_le hx
    have h2 := halfEven_mono h1
    rw [halfEven_int] at h2
    have : ((2 ^ 52 : ℤ) : ℚ) ≤ (halfEven (x / ulp x) : ℚ) := by exact_mod_cast h2
    push_cast at this; exact this
  · refine mul_le_mul_of_nonneg_right ?_ hu.le
    have h1 : x / ulp x ≤ ((2 ^ 53 : ℤ) : ℚ) := by rw [div_le_iff₀ hu]; push_cast; exact lt_two.le
    have h2 := halfEven_mono h1
    rw [halfEven_int] at h2
    have : (halfEven (x / ulp x) : ℚ) ≤ ((2 ^ 53 : ℤ) : ℚ) := by exact_mod_cast h2
    push_cast at this; exact this

theorem b64_pos_pos {x : ℚ} (hx : 0 < x) : 0 < binary64 x := by
  have h1 := (b64_bounds hx).1
  have := ulp_pos x
  have : 0 < (2 : ℚ) ^ 52 * ulp x := by positivity
  linarith

theorem b64_mono_pos {x y : ℚ} (hx : 0 < x) (h : x ≤ y) : binary64 x ≤ binary64 y := by
  have hy : 0 < y := lt_of_lt_of_le hx h
  have hl := Int.log_mono_right (b := 2) hx h
  rcases hl.lt_or_eq with hlt | he
  · have h1 := (b64_bounds hx).2
    have h2 := (b64_bounds hy).1
    have h3 : (2 : ℚ) ^ 53 * ulp x ≤ (2 : ℚ) ^ 52 * ulp y := by
      unfold ulp
      rw [← zpow_natCast (2 : ℚ) 53, ← zpow_natCast (2 : ℚ) 52, ← zpow_add₀ (by norm_num), ← zpow_add₀ (by norm_num)]
      refine zpow_le_zpow_right₀ (by norm_num) ?_
      push_cast; omega
    linarith
  · have hu : ulp x = ulp y := by unfold ulp; rw [he]
    rw [b64_pos hx, b64_pos hy, hu]
    refine mul_le_mul_of_nonneg_right ?_ (ulp_pos y).le
    have := halfEven_mono (div_le_div_of_nonneg_right h (ulp_pos y).le)
    exact_mod_cast this

theorem b64_mono {x y : ℚ} (h : x ≤ y) : binary64 x ≤ binary64 y := by
  rcases lt_trichotomy x 0 with hx | hx | hx
  · rcases lt_trichotomy y 0 with hy | hy | hy
    · have := b64_mono_pos (x := -y) (y := -x) (by linarith) (by linarith)
      rw [b64_neg, b64_neg] at this
      linarith
    · rw [hy, b64_zero]
      have := b64_pos_pos (x := -x) (by linarith)
      rw [b64_neg] at this; linarith
    · have h1 := b64_pos_pos (x := -x) (by linarith)
      rw [b64_neg] at h1
      have h2 := b64_pos_pos hy
      linarith
  · rcases lt_or_eq_of_le h with hy | hy
    · rw [hx, b64_zero]; rw [hx] at hy; exact (b64_pos_pos hy).le
    · rw [hy]
  · exact b64_mono_pos hx h

/-- Numbers that are whole multiples of their spacing are represented exactly. -/
theorem b64_exact {x : ℚ} (hx : 0 < x) (z : ℤ) (hz : x = z * ulp x) : binary64 x = x := by
  have hu := ulp_pos x
  rw [b64_pos hx]
  have : x / ulp x = z := by rw [div_eq_iff hu.ne']; exact hz
  rw [this, halfEven_int]; exact hz.symm

theorem b64_whole (i : Nat) (hi : i ≤ 2 ^ 53) : binary64 (i : ℚ) = i := by
  rcases Nat.eq_zero_or_pos i with rfl | hpos
  · simpa using b64_zero
  · have hx : (0 : ℚ) < i := by exact_mod_cast hpos
    have hlog : Int.log 2 (i : ℚ) = (Nat.log 2 i : ℤ) := Int.log_natCast 2 i
    by_cases h : i = 2 ^ 53
    · refine b64_exact hx (2 ^ 52) ?_
      have : Nat.log 2 i = 53 := by rw [h]; exact Nat.log_pow (by norm_num) 53
      unfold ulp
      rw [hlog, this, h]
      norm_num
    · have hlt : i < 2 ^ 53 := lt_of_le_of_ne hi h
      have hl : Nat.log 2 i ≤ 52 := by
        have := Nat.log_lt_of_lt_pow (by omega) hlt
        omega
      refine b64_exact hx (i * 2 ^ (52 - Nat.log 2 i)) ?_
      unfold ulp
      rw [hlog]
      push_cast
      have : ((2 : ℚ) ^ (52 - Nat.log 2 i)) * (2 : ℚ) ^ ((Nat.log 2 i : ℤ) - 52) = 1 := by
        rw [← zpow_natCast (2 : ℚ), ← zpow_add₀ (by norm_num)]
        rw [Nat.cast_sub hl]
        push_cast
        rw [show (52 : ℤ) - (Nat.log 2 i : ℤ) + ((Nat.log 2 i : ℤ) - 52) = 0 by ring, zpow_zero]
      rw [mul_assoc, this, mul_one]

theorem b64_twice (x : ℚ) : binary64 (binary64 x) = binary64 x := by
  have pos : ∀ x : ℚ, 0 < x → binary64 (binary64 x) = binary64 x := by
    intro x hx
    have hu := ulp_pos x
    obtain ⟨h1, h2⟩ := b64_bounds hx
    have hb := b64_pos_pos hx
    have e := b64_pos hx
    -- the binade of the result is that of `x`, or the next one with the result at its lower end
    rcases h2.lt_or_eq with hlt | heq
    · have hl : Int.log 2 (binary64 x) = Int.log 2 x := by
        apply le_antisymm
        · have : binary64 x < ((2 : ℕ) : ℚ) ^ (Int.log 2 x + 1) := by
            have e2 : (2 : ℚ) ^ 53 * ulp x = (2 : ℚ) ^ (Int.log 2 x + 1) := by
              unfold ulp
              rw [← zpow_natCast (2 : ℚ) 53, ← zpow_add₀ (by norm_num)]
              congr 1; push_cast; ring
            have h3 : binary64 x < (2 : ℚ) ^ (Int.log 2 x + 1) := e2 ▸ hlt
            exact_mod_cast h3
          have := (Int.lt_zpow_iff_log_lt (b := 2) (by norm_num) hb).mp this
          omega
        · have : ((2 : ℕ) : ℚ) ^ (Int.log 2 x) ≤ binary64 x := by
            have e2 : (2 : ℚ) ^ 52 * ulp x = (2 : ℚ) ^ (Int.log 2 x) := by
              unfold ulp
              rw [← zpow_natCast (2 : ℚ) 52, ← zpow_add₀ (by norm_num)]
              congr 1; push_cast; ring
            have := e2 ▸ h1
            exact_mod_cast this
          exact (Int.zpow_le_iff_le_log (b := 2) (by norm_num) hb).mp this
      refine b64_exact hb (halfEven (x / ulp x)) ?_
      have : ulp (binary64 x) = ulp x := by unfold ulp; rw [hl]
      rw [this]; exact e
    · have e2 : binary64 x = (2 : ℚ) ^ (Int.log 2 x + 1) := by
        rw [heq]; unfold ulp
        rw [← zpow_natCast (2 : ℚ) 53, ← zpow_add₀ (by norm_num)]
        congr 1; push_cast; ring
      have hl : Int.log 2 (binary64 x) = Int.log 2 x + 1 := by
        rw [e2]; exact_mod_cast Int.log_zpow (R := ℚ) (b := 2) (by norm_num) (Int.log 2 x + 1)
      refine b64_exact hb (2 ^ 52) ?_
      unfold ulp
      rw [hl, e2, show (((2 ^ 52 : ℤ)) : ℚ) = (2 : ℚ) ^ 52 by norm_num]
      rw [← zpow_natCast (2 : ℚ) 52, ← zpow_add₀ (by norm_num)]
      congr 1; push_cast; ring
  rcases lt_trichotomy x 0 with h | h | h
  · have := pos (-x) (by linarith)
    rw [b64_neg, b64_neg] at this
    linarith
  · rw [h, b64_zero, b64_zero]
  · exact pos x h

theorem b64_error (x : ℚ) : |binary64 x - x| ≤ 1 / 2 ^ 53 * |x| := by
  have pos : ∀ x : ℚ, 0 < x → |binary64 x - x| ≤ 1 / 2 ^ 53 * |x| := by
    intro x hx
    have hu := ulp_pos x
    rw [b64_pos hx, abs_of_pos hx]
    have h1 := halfEven_error (x / ulp x)
    have e : (halfEven (x / ulp x) : ℚ) * ulp x - x = ((halfEven (x / ulp x) : ℚ) - x / ulp x) * ulp x := by
      field_simp
    rw [e, abs_mul, abs_of_pos hu]
    have h2 := two_le hx
    have h3 := mul_le_mul_of_nonneg_right h1 hu.le
    have : 1 / 2 * ulp x ≤ 1 / 2 ^ 53 * x := by
      have : ulp x ≤ x / 2 ^ 52 := by rw [le_div_iff₀ (by norm_num)]; linarith
      calc 1 / 2 * ulp x ≤ 1 / 2 * (x / 2 ^ 52) := by linarith
        _ = 1 / 2 ^ 53 * x := by ring
    linarith
  rcases lt_trichotomy x 0 with h | h | h
  · have := pos (-x) (by linarith)
    rw [b64_neg, abs_neg] at this
    rwa [← abs_neg, show -(binary64 x - x) = -binary64 x - -x by ring]
  · simp [h, b64_zero]
  · exact pos x h

theorem binary64_isRounding : IsRounding binary64 (1 / 2 ^ 53) (2 ^ 53) :=
  ⟨fun _ _ => b64_mono, b64_whole, b64_twice, b64_error⟩

end QuESo.Round
