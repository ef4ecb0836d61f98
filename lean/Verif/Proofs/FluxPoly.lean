import Verif.Proofs.TriangleRule
import Verif.Props.MomentFitting
import Verif.Proofs.BoxMesh

/-!
# The flux field on triangles, and boxes
-/
namespace QuESo.TriRule
open Spec MeasureTheory

/-! ### Polynomials of one number that varies linearly -/

/-- Horner's scheme. -/
def horner : List ℝ → ℝ → ℝ
  | [], _ => 0
  | c :: cs, u => c + u * horner cs u

/-- The bound of the coefficients. -/
def hornerBound : List ℝ → ℝ
  | [] => 0
  | c :: cs => |c| + 5 * hornerBound cs

theorem polyOn_horner {u : ℝ → ℝ → ℝ} (hu : PolyOn 1 5 u) (cs : List ℝ) :
    PolyOn (cs.length - 1) (hornerBound cs) fun r s => horner cs (u r s) := by
  induction cs with
  | nil => simpa [horner, hornerBound] using PolyOn.zero 0
  | cons c cs ih =>
    cases cs with
    | nil => simpa [horner, hornerBound] using PolyOn.const c
    | cons c' cs =>
      have h1 := hu.mul ih
      have h2 := ((PolyOn.const c).mono (Nat.zero_le (1 + ((c' :: cs).length - 1))) le_rfl).add h1
      refine h2.mono ?_ le_rfl
      simp only [List.length_cons]; omega

/-- The coefficients of the Legendre polynomials. -/
noncomputable def legendreCoeffs : Nat → List ℝ
  | 0 => [1]
  | 1 => [0, 1]
  | 2 => [-1 / 2, 0, 3 / 2]
  | 3 => [0, -3 / 2, 0, 5 / 2]
  | 4 => [3 / 8, 0, -30 / 8, 0, 35 / 8]
  | _ => [0, 15 / 8, 0, -70 / 8, 0, 63 / 8]

/-- The coefficients of the antiderivatives, without the term in `x` itself. -/
noncomputable def antiCoeffs : Nat → List ℝ
  | 0 => []
  | 1 => [0, 0, 1 / 4]
  | 2 => [0, 0, 0, 1 / 4]
  | 3 => [0, 0, -3 / 8, 0, 5 / 16]
  | 4 => [0, 0, 0, -5 / 8, 0, 7 / 16]
  | _ => [0, 0, 15 / 32, 0, -35 / 32, 0, 21 / 32]

/-- The term in `x` itself. -/
noncomputable def antiLinear : Nat → ℝ
  | 0 => 1
  | 2 => -1 / 2
  | 4 => 3 / 8
  | _ => 0

theorem fx_horner {n : Nat} (hn : n ≤ 5) (x a b : ℝ) : Poly.fx x n a b = horner (legendreCoeffs n) ((2 * x - a - b) / (b - a)) := by
  interval_cases n <;> simp only [Poly.fx, Poly.power_eq, legendreCoeffs, horner] <;> ring

theorem fxInt_horner {n : Nat} (hn : n ≤ 5) (x a b : ℝ) (h : a < b) :
    Poly.fxInt x n a b = antiLinear n * x + (b - a) * horner (antiCoeffs n) ((2 * x - a - b) / (b - a)) := by
  have h1 : b - a ≠ 0 := by linarith
  have h2 : a - b = -(b - a) := by ring
  have h3 : a + b - 2 * x = -(b - a) * ((2 * x - a - b) / (b - a)) := by field_simp; ring
  generalize hu : (2 * x - a - b) / (b - a) = u at h3 ⊢
  generalize hw : b - a = w at h1 h2 h3 ⊢
  interval_cases n <;> simp only [Poly.fxInt, Poly.power_eq, antiCoeffs, antiLinear, horner, h2, h3] <;> field_simp <;> ring

theorem legendre_bound {n : Nat} (hn : n ≤ 5) : hornerBound (legendreCoeffs n) ≤ 8 ^ n := by
  interval_cases n <;> simp only [legendreCoeffs, hornerBound] <;> norm_num [abs_of_pos, abs_of_neg, abs_of_nonneg]

theorem anti_bound {n : Nat} (hn : n ≤ 5) : 5 * |antiLinear n| + 2 * hornerBound (antiCoeffs n) ≤ 8 ^ (n + 1) := by
  interval_cases n <;> simp only [antiCoeffs, antiLinear, hornerBound] <;> norm_num [abs_of_pos, abs_of_neg, abs_of_nonneg]

theorem unit_abs {a b x : ℝ} (h : a < b) (h1 : a ≤ x) (h2 : x ≤ b) : |(2 * x - a - b) / (b - a)| ≤ 1 := by
  rw [abs_div, div_le_one (abs_pos.2 (by linarith)), abs_of_pos (show 0 < b - a by linarith), abs_le]
  constructor <;> linarith

theorem polyOn_unit {a b x1 x2 x3 : ℝ} (h : a < b) (h1 : a ≤ x1 ∧ x1 ≤ b) (h2 : a ≤ x2 ∧ x2 ≤ b) (h3 : a ≤ x3 ∧ x3 ≤ b) :
    PolyOn 1 5 fun r s => (2 * (x1 + r * (x2 - x1) + s * (x3 - x1)) - a - b) / (b - a) := by
  have := PolyOn.linear (unit_abs h h1.1 h1.2) (unit_abs h h2.1 h2.2) (unit_abs h h3.1 h3.2)
  rw [mul_one] at this
  refine this.congr fun r s => ?_
  have : b - a ≠ 0 := by linarith
  field_simp
  ring

theorem polyOn_fx {n : Nat} (hn : n ≤ 5) {a b x1 x2 x3 : ℝ} (h : a < b) (h1 : a ≤ x1 ∧ x1 ≤ b) (h2 : a ≤ x2 ∧ x2 ≤ b)
    (h3 : a ≤ x3 ∧ x3 ≤ b) : PolyOn n (8 ^ n) fun r s => Poly.fx (x1 + r * (x2 - x1) + s * (x3 - x1)) n a b := by
  have hp := (polyOn_horner (polyOn_unit h h1 h2 h3) (legendreCoeffs n)).mono (d' := n)
    (by interval_cases n <;> simp [legendreCoeffs]) (legendre_bound hn)
  exact hp.congr fun r s => fx_horner hn _ _ _

theorem polyOn_fxInt {n : Nat} (hn : n ≤ 5) {a b x1 x2 x3 m : ℝ} (h : a < b) (h1 : a ≤ x1 ∧ x1 ≤ b) (h2 : a ≤ x2 ∧ x2 ≤ b)
    (h3 : a ≤ x3 ∧ x3 ≤ b) (ha : |a| ≤ m) (hb : |b| ≤ m) :
    PolyOn (n + 1) (8 ^ (n + 1) * m) fun r s => Poly.fxInt (x1 + r * (x2 - x1) + s * (x3 - x1)) n a b := by
  have hx : ∀ x : ℝ, a ≤ x ∧ x ≤ b → |x| ≤ m := fun x hx =>
    abs_le.2 ⟨by linarith [(abs_le.1 ha).1], by linarith [(abs_le.1 hb).2]⟩
  have hm : 0 ≤ m := (abs_nonneg a).trans ha
  have hp := ((polyOn_horner (polyOn_unit h h1 h2 h3) (antiCoeffs n)).smul (b - a)).mono (d' := n + 1)
    (m' := 2 * m * hornerBound (antiCoeffs n)) (by interval_cases n <;> simp [antiCoeffs]) (by
      apply mul_le_mul_of_nonneg_right _ (polyOn_horner (polyOn_unit h h1 h2 h3) (antiCoeffs n)).nonneg
      have := abs_sub b a
      linarith)
  have hl := ((PolyOn.linear (hx _ h1) (hx _ h2) (hx _ h3)).smul (antiLinear n)).mono (d' := n + 1) (by omega) le_rfl
  have := (hl.add hp).mono (m' := 8 ^ (n + 1) * m) le_rfl (by
    have := mul_le_mul_of_nonneg_right (anti_bound hn) hm
    linarith)
  exact this.congr fun r s => fxInt_horner hn _ _ _ h

/-- The component of the flux field along a vector on a triangle in the box is a polynomial with bounded coefficients. -/
theorem polyOn_flux {c : Box ℝ} (hc : ProperBox c) {i : V3 Nat} (hi : i.x + i.y + i.z ≤ 5) {t : Tri ℝ}
    (ht : ∀ v ∈ [t.p1, t.p2, t.p3], InBox c v) {m : ℝ}
    (hm : (|c.lower.x| ≤ m ∧ |c.lower.y| ≤ m ∧ |c.lower.z| ≤ m) ∧ |c.upper.x| ≤ m ∧ |c.upper.y| ≤ m ∧ |c.upper.z| ≤ m)
    {n : V3 ℝ} (hn : |n.x| ≤ 1 ∧ |n.y| ≤ 1 ∧ |n.z| ≤ 1) :
    PolyOn 6 (8 ^ 6 * m) fun r s => n.x * (fluxField c i (trianglePoint t.p1 t.p2 t.p3 r s)).x +
      n.y * (fluxField c i (trianglePoint t.p1 t.p2 t.p3 r s)).y + n.z * (fluxField c i (trianglePoint t.p1 t.p2 t.p3 r s)).z := by
  obtain ⟨hcx, hcy, hcz⟩ := hc
  have b1 := ht t.p1 (by simp)
  have b2 := ht t.p2 (by simp)
  have b3 := ht t.p3 (by simp)
  have hm0 : 0 ≤ m := (abs_nonneg _).trans hm.1.1
  have fX := polyOn_fx (n := i.x) (by omega) hcx b1.1 b2.1 b3.1
  have fY := polyOn_fx (n := i.y) (by omega) hcy b1.2.1 b2.2.1 b3.2.1
  have fZ := polyOn_fx (n := i.z) (by omega) hcz b1.2.2 b2.2.2 b3.2.2
  have gX := polyOn_fxInt (n := i.x) (by omega) hcx b1.1 b2.1 b3.1 hm.1.1 hm.2.1
  have gY := polyOn_fxInt (n := i.y) (by omega) hcy b1.2.1 b2.2.1 b3.2.1 hm.1.2.1 hm.2.2.1
  have gZ := polyOn_fxInt (n := i.z) (by omega) hcz b1.2.2 b2.2.2 b3.2.2 hm.1.2.2 hm.2.2.2
  have hb : ∀ k : Nat, k ≤ 6 → (8 : ℝ) ^ k ≤ 8 ^ 6 := fun k hk => pow_le_pow_right₀ (by norm_num) hk
  have hk : ∀ {k : Nat} {q v : ℝ} {g : ℝ → ℝ → ℝ}, PolyOn k q g → k ≤ 6 → q ≤ 8 ^ 6 * m → |v| ≤ 1 →
      PolyOn 6 (1 / 3 * (8 ^ 6 * m)) fun r s => v * (1 / 3 * g r s) := by
    intro k q v g hg hk hq hv
    have h1 := ((hg.smul (1 / 3)).smul v)
    refine h1.mono hk ?_
    rw [abs_of_pos (show (0 : ℝ) < 1 / 3 by norm_num)]
    have hq0 := hg.nonneg
    have : |v| * (1 / 3 * q) ≤ 1 * (1 / 3 * q) := mul_le_mul_of_nonneg_right hv (by linarith)
    linarith
  have e : ∀ a b c : Nat, (8 : ℝ) ^ (a + 1) * m * 8 ^ b * 8 ^ c = 8 ^ (a + b + c + 1) * m := by
    intro a b c; rw [show a + b + c + 1 = (a + 1) + b + c by ring, pow_add, pow_add]; ring
  have e' : ∀ a b c : Nat, (8 : ℝ) ^ a * (8 ^ (b + 1) * m) * 8 ^ c = 8 ^ (a + b + c + 1) * m := by
    intro a b c; rw [show a + b + c + 1 = a + (b + 1) + c by ring, pow_add, pow_add]; ring
  have e'' : ∀ a b c : Nat, (8 : ℝ) ^ a * 8 ^ b * (8 ^ (c + 1) * m) = 8 ^ (a + b + c + 1) * m := by
    intro a b c; rw [show a + b + c + 1 = a + b + (c + 1) by ring, pow_add, pow_add]; ring
  have hle : (8 : ℝ) ^ (i.x + i.y + i.z + 1) * m ≤ 8 ^ 6 * m := mul_le_mul_of_nonneg_right (hb _ (by omega)) hm0
  have pX := hk (v := n.x) ((gX.mul fY).mul fZ) (by omega) (by rw [e]; exact hle) hn.1
  have pY := hk (v := n.y) ((fX.mul gY).mul fZ) (by omega) (by rw [e']; exact hle) hn.2.1
  have pZ := hk (v := n.z) ((fX.mul fY).mul gZ) (by omega) (by rw [e'']; exact hle) hn.2.2
  refine ((pX.add pY).add pZ).mono (m' := 8 ^ 6 * m) le_rfl (by linarith)

/-! ### Smoothness -/

theorem contDiff_fx (n : Nat) (a b : ℝ) : ContDiff ℝ 1 fun x => Poly.fx x n a b := by
  match n with
  | 0 | 1 | 2 | 3 | 4 | 5 | 6 | 7 | 8 => simp only [Poly.fx, Poly.power_eq]; fun_prop
  | n + 9 => exact contDiff_const

theorem contDiff_fxInt (n : Nat) (a b : ℝ) : ContDiff ℝ 1 fun x => Poly.fxInt x n a b := by
  match n with
  | 0 | 1 | 2 | 3 | 4 | 5 | 6 | 7 | 8 => simp only [Poly.fxInt, Poly.power_eq]; fun_prop
  | n + 9 => exact contDiff_const

theorem contDiff_product {f g h : ℝ → ℝ} (hf : ContDiff ℝ 1 f) (hg : ContDiff ℝ 1 g) (hh : ContDiff ℝ 1 h) :
    ContDiff ℝ 1 fun q : ℝ × ℝ × ℝ => f q.1 * g q.2.1 * h q.2.2 :=
  ((hf.comp contDiff_fst).mul (hg.comp (contDiff_fst.comp contDiff_snd))).mul (hh.comp (contDiff_snd.comp contDiff_snd))

theorem smooth_fluxField (c : Box ℝ) (i : V3 Nat) : SmoothField (fluxField c i) :=
  ⟨contDiff_const.mul (contDiff_product (contDiff_fxInt _ _ _) (contDiff_fx _ _ _) (contDiff_fx _ _ _)),
   contDiff_const.mul (contDiff_product (contDiff_fx _ _ _) (contDiff_fxInt _ _ _) (contDiff_fx _ _ _)),
   contDiff_const.mul (contDiff_product (contDiff_fx _ _ _) (contDiff_fx _ _ _) (contDiff_fxInt _ _ _))⟩

theorem divergence_fluxField {c : Box ℝ} (hc : ProperBox c) (i : V3 Nat) : divergence (fluxField c i) = legendre c i := by
  ext p
  obtain ⟨dx, dy, dz, hx, hy, hz, he⟩ := Trimmed.C61_divergence c hc.1.ne hc.2.1.ne hc.2.2.ne i p
  unfold divergence
  rw [hx.deriv, hy.deriv, hz.deriv, he]

end QuESo.TriRule
