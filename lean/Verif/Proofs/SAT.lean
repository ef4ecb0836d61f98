import Verif.Model.AABB
import Verif.Spec.Clip
import Verif.Spec.Box
import Mathlib.Analysis.Convex.Radon
import Mathlib.LinearAlgebra.Dimension.Constructions
import Mathlib.LinearAlgebra.Dimension.Finrank
import Mathlib.Tactic.Linarith
import Mathlib.Tactic.LinearCombination
import Mathlib.Tactic.Ring
import Mathlib.Tactic.FieldSimp

/-!
# The separating-axis test is exact

`SAT.exact_param`: in the parameter plane of the triangle, nine half-planes have a common point if all
thirteen projections overlap.  The proof uses Helly's theorem of Mathlib in dimensions two and one.
-/
namespace QuESo.SAT
variable {K : Type _} [Field K] [LinearOrder K] [IsStrictOrderedRing K]

/-- A parameter pair of the triangle. -/
def InT (u v : K) : Prop := 0 ≤ u ∧ 0 ≤ v ∧ u + v ≤ 1

theorem interp {x y h : K} (hh : 0 ≤ h) (hx : x ≤ h) (hy : -h ≤ y) :
    ∃ s, 0 ≤ s ∧ s ≤ 1 ∧ |x + s * (y - x)| ≤ h := by
  by_cases h1 : -h ≤ x
  · exact ⟨0, le_rfl, zero_le_one, by simp [abs_le, h1, hx]⟩
  · by_cases h2 : y ≤ h
    · exact ⟨1, zero_le_one, le_rfl, by simp [abs_le, hy, h2]⟩
    · push Not at h1 h2
      have hd : 0 < y - x := by linarith
      refine ⟨(-h - x) / (y - x), div_nonneg (by linarith) hd.le, (div_le_one hd).2 (by linarith), ?_⟩
      rw [div_mul_cancel₀ _ hd.ne']
      rw [show x + (-h - x) = -h by ring, abs_neg, abs_of_nonneg hh]

/-- The interval of three values overlaps `[-r, r]`: some convex combination lies in it. -/
theorem three {x y z r : K} (hr : 0 ≤ r) (hmin : x ≤ r ∨ y ≤ r ∨ z ≤ r) (hmax : -r ≤ x ∨ -r ≤ y ∨ -r ≤ z) :
    ∃ u v, InT u v ∧ |x + u * (y - x) + v * (z - x)| ≤ r := by
  rcases hmin with h1 | h1 | h1 <;> rcases hmax with h2 | h2 | h2 <;>
    obtain ⟨s, s0, s1, hs⟩ := interp hr h1 h2
  · exact ⟨0, 0, ⟨le_rfl, le_rfl, by linarith⟩, by convert hs using 2; ring⟩
  · exact ⟨s, 0, ⟨s0, le_rfl, by linarith⟩, by convert hs using 2; ring⟩
  · exact ⟨0, s, ⟨le_rfl, s0, by linarith⟩, by convert hs using 2; ring⟩
  · exact ⟨1 - s, 0, ⟨by linarith, le_rfl, by linarith⟩, by convert hs using 2; ring⟩
  · exact ⟨1, 0, ⟨by linarith, le_rfl, by linarith⟩, by convert hs using 2; ring⟩
  · exact ⟨1 - s, s, ⟨by linarith, s0, by linarith⟩, by convert hs using 2; ring⟩
  · exact ⟨0, 1 - s, ⟨le_rfl, by linarith, by linarith⟩, by convert hs using 2; ring⟩
  · exact ⟨s, 1 - s, ⟨s0, by linarith, by linarith⟩, by convert hs using 2; ring⟩
  · exact ⟨0, 1, ⟨le_rfl, zero_le_one, by linarith⟩, by convert hs using 2; ring⟩

/-- Every value of the projection of a box is taken by a point of the box. -/
theorem exists_box {n1 n2 n3 h1 h2 h3 val : K} (a1 : 0 ≤ h1) (a2 : 0 ≤ h2) (a3 : 0 ≤ h3)
    (hv : |val| ≤ h1 * |n1| + h2 * |n2| + h3 * |n3|) :
    ∃ q1 q2 q3, |q1| ≤ h1 ∧ |q2| ≤ h2 ∧ |q3| ≤ h3 ∧ n1 * q1 + n2 * q2 + n3 * q3 = val := by
  have sgn : ∀ n : K, ∃ e : K, |e| ≤ 1 ∧ n * e = |n| := by
    intro n
    rcases le_total 0 n with h | h
    · exact ⟨1, by simp, by rw [abs_of_nonneg h]; ring⟩
    · exact ⟨-1, by simp, by rw [abs_of_nonpos h]; ring⟩
  obtain ⟨e1, he1, g1⟩ := sgn n1
  obtain ⟨e2, he2, g2⟩ := sgn n2
  obtain ⟨e3, he3, g3⟩ := sgn n3
  set r := h1 * |n1| + h2 * |n2| + h3 * |n3| with hr
  have hr0 : 0 ≤ r := le_trans (abs_nonneg _) hv
  rcases hr0.eq_or_lt with h0 | h0
  · have : val = 0 := by rw [← h0] at hv; exact abs_nonpos_iff.1 hv
    exact ⟨0, 0, 0, by simpa, by simpa, by simpa, by simp [this]⟩
  · have hl : |val / r| ≤ 1 := by rw [abs_div, abs_of_pos h0]; exact (div_le_one h0).2 hv
    have bd : ∀ h e : K, 0 ≤ h → |e| ≤ 1 → |val / r * (h * e)| ≤ h := by
      intro h e hh he
      rw [abs_mul, abs_mul, abs_of_nonneg hh]
      calc |val / r| * (h * |e|) ≤ 1 * (h * 1) :=
            mul_le_mul hl (mul_le_mul_of_nonneg_left he hh) (by positivity) zero_le_one
        _ = h := by ring
    refine ⟨val / r * (h1 * e1), val / r * (h2 * e2), val / r * (h3 * e3), bd _ _ a1 he1, bd _ _ a2 he2, bd _ _ a3 he3, ?_⟩
    have : n1 * (val / r * (h1 * e1)) + n2 * (val / r * (h2 * e2)) + n3 * (val / r * (h3 * e3)) =
        val / r * (h1 * (n1 * e1) + h2 * (n2 * e2) + h3 * (n3 * e3)) := by ring
    rw [this, g1, g2, g3, ← hr, div_mul_cancel₀ _ h0.ne']

/-- A line through `p` with direction `d` meets a rectangle if the projections along the line overlap. -/
theorem line_rect {p1 p2 d1 d2 h1 h2 : K} (a1 : 0 ≤ h1) (a2 : 0 ≤ h2) (hd : ¬ (d1 = 0 ∧ d2 = 0))
    (hv : |-d2 * p1 + d1 * p2| ≤ h1 * |d2| + h2 * |d1|) : ∃ t, |p1 + t * d1| ≤ h1 ∧ |p2 + t * d2| ≤ h2 := by
  obtain ⟨q1, q2, q3, b1, b2, b3, e⟩ := exists_box (n1 := -d2) (n2 := d1) (n3 := 0) (h3 := 0) a1 a2 le_rfl
    (val := -d2 * p1 + d1 * p2) (by simpa using hv)
  by_cases hd1 : d1 = 0
  · have hd2 : d2 ≠ 0 := fun h => hd ⟨hd1, h⟩
    subst hd1
    have hq : q1 = p1 := by
      apply mul_left_cancel₀ hd2
      linear_combination -e
    refine ⟨(q2 - p2) / d2, by simpa [← hq] using b1, ?_⟩
    rw [div_mul_cancel₀ _ hd2]
    simpa using b2
  · refine ⟨(q1 - p1) / d1, ?_, ?_⟩
    · rw [div_mul_cancel₀ _ hd1]
      simpa using b1
    · have : p2 + (q1 - p1) / d1 * d2 = q2 := by
        field_simp
        linear_combination -e
      rw [this]
      exact b2

theorem convex_slab {E : Type _} [AddCommGroup E] [Module K E] (f : E → K) (c : K)
    (hf : ∀ x y (s t : K), s + t = 1 → f (s • x + t • y) = s * f x + t * f y) : Convex K {x | f x ≤ c} := by
  intro x hx y hy s t hs ht hst
  simp only [Set.mem_setOf_eq] at *
  rw [hf x y s t hst]
  calc s * f x + t * f y ≤ s * c + t * c := add_le_add (mul_le_mul_of_nonneg_left hx hs) (mul_le_mul_of_nonneg_left hy ht)
    _ = c := by rw [← add_mul, hst, one_mul]

theorem convex_abs {E : Type _} [AddCommGroup E] [Module K E] (f : E → K) (c : K)
    (hf : ∀ x y (s t : K), s + t = 1 → f (s • x + t • y) = s * f x + t * f y) : Convex K {x | |f x| ≤ c} := by
  have : {x | |f x| ≤ c} = {x | f x ≤ c} ∩ {x | -f x ≤ c} := by
    ext x
    simp only [Set.mem_setOf_eq, Set.mem_inter_iff, abs_le']
  rw [this]
  refine (convex_slab f c hf).inter (convex_slab (fun x => -f x) c ?_)
  intro x y s t hst
  rw [hf x y s t hst]
  ring

/-- Helly in dimension one for three slabs. -/
theorem helly1 (f : Fin 3 → K → Prop) (hf : ∀ i, Convex K {x | f i x}) (h01 : ∃ t, f 0 t ∧ f 1 t) (h02 : ∃ t, f 0 t ∧ f 2 t)
    (h12 : ∃ t, f 1 t ∧ f 2 t) : ∃ t, f 0 t ∧ f 1 t ∧ f 2 t := by
  have := Convex.helly_theorem (𝕜 := K) (E := K) (F := fun i => {x | f i x}) (s := Finset.univ) (by simp)
    (fun i _ => hf i) (by
      intro I _ hI
      rw [Module.finrank_self] at hI
      have key : ∀ I : Finset (Fin 3), I.card = 2 → I = {0, 1} ∨ I = {0, 2} ∨ I = {1, 2} := by decide
      rcases key I hI with rfl | rfl | rfl
      · obtain ⟨t, h⟩ := h01; exact ⟨t, by simpa using h⟩
      · obtain ⟨t, h⟩ := h02; exact ⟨t, by simpa using h⟩
      · obtain ⟨t, h⟩ := h12; exact ⟨t, by simpa using h⟩)
  obtain ⟨t, ht⟩ := this
  simp only [Finset.mem_univ, Set.iInter_true, Set.mem_iInter, Set.mem_setOf_eq] at ht
  exact ⟨t, ht 0, ht 1, ht 2⟩

theorem convex_line (p d c : K) : Convex K {t : K | |p + t * d| ≤ c} :=
  convex_abs (fun t => p + t * d) c (by intro x y s t h; simp only [smul_eq_mul]; linear_combination p * (1 - h) - p + p * 1)

theorem convex_unit : Convex K {t : K | 0 ≤ t ∧ t ≤ 1} := by
  have : {t : K | 0 ≤ t ∧ t ≤ 1} = Set.Icc 0 1 := rfl
  rw [this]
  exact convex_Icc 0 1

/-- A segment meets a rectangle if the projections on the two axes and along the segment overlap. -/
theorem segment_rect {p1 p2 d1 d2 h1 h2 : K} (a1 : 0 ≤ h1) (a2 : 0 ≤ h2)
    (hx : ∃ s, (0 ≤ s ∧ s ≤ 1) ∧ |p1 + s * d1| ≤ h1) (hy : ∃ s, (0 ≤ s ∧ s ≤ 1) ∧ |p2 + s * d2| ≤ h2)
    (hv : |-d2 * p1 + d1 * p2| ≤ h1 * |d2| + h2 * |d1|) :
    ∃ s, (0 ≤ s ∧ s ≤ 1) ∧ |p1 + s * d1| ≤ h1 ∧ |p2 + s * d2| ≤ h2 := by
  by_cases hd : d1 = 0 ∧ d2 = 0
  · obtain ⟨rfl, rfl⟩ := hd
    obtain ⟨s, hs, h⟩ := hx
    obtain ⟨s', hs', h'⟩ := hy
    exact ⟨s, hs, h, by simpa using h'⟩
  · exact helly1 (fun i => match i with
      | 0 => fun t => 0 ≤ t ∧ t ≤ 1
      | 1 => fun t => |p1 + t * d1| ≤ h1
      | 2 => fun t => |p2 + t * d2| ≤ h2)
      (by
        intro i
        match i with
        | 0 => exact convex_unit
        | 1 => exact convex_line _ _ _
        | 2 => exact convex_line _ _ _) hx hy (line_rect a1 a2 hd hv)

/-- Two slabs and one of the half-planes of the triangle have a common point. -/
theorem hss {p1 a1 b1 h1 p2 a2 b2 h2 : K} (n1 : 0 ≤ h1) (n2 : 0 ≤ h2)
    (X : ∃ u v, InT u v ∧ |p1 + u * a1 + v * b1| ≤ h1) (Y : ∃ u v, InT u v ∧ |p2 + u * a2 + v * b2| ≤ h2)
    (E0 : ∃ u v, InT u v ∧ |-a2 * (p1 + u * a1 + v * b1) + a1 * (p2 + u * a2 + v * b2)| ≤ h1 * |a2| + h2 * |a1|)
    (E1 : ∃ u v, InT u v ∧ |-(b2 - a2) * (p1 + u * a1 + v * b1) + (b1 - a1) * (p2 + u * a2 + v * b2)| ≤
      h1 * |b2 - a2| + h2 * |b1 - a1|)
    (E2 : ∃ u v, InT u v ∧ |-b2 * (p1 + u * a1 + v * b1) + b1 * (p2 + u * a2 + v * b2)| ≤ h1 * |b2| + h2 * |b1|) :
    (∃ u v, 0 ≤ u ∧ |p1 + u * a1 + v * b1| ≤ h1 ∧ |p2 + u * a2 + v * b2| ≤ h2) ∧
    (∃ u v, 0 ≤ v ∧ |p1 + u * a1 + v * b1| ≤ h1 ∧ |p2 + u * a2 + v * b2| ≤ h2) ∧
    (∃ u v, u + v ≤ 1 ∧ |p1 + u * a1 + v * b1| ≤ h1 ∧ |p2 + u * a2 + v * b2| ≤ h2) := by
  refine ⟨?_, ?_, ?_⟩
  · by_cases hb : b1 = 0 ∧ b2 = 0
    · obtain ⟨rfl, rfl⟩ := hb
      obtain ⟨u, v, ⟨hu, hv, huv⟩, hX⟩ := X
      obtain ⟨u', v', ⟨hu', hv', huv'⟩, hY⟩ := Y
      obtain ⟨u'', v'', -, hE⟩ := E0
      obtain ⟨s, hs, g1, g2⟩ := segment_rect (p1 := p1) (p2 := p2) (d1 := a1) (d2 := a2) n1 n2
        ⟨u, ⟨hu, by linarith⟩, by simpa using hX⟩ ⟨u', ⟨hu', by linarith⟩, by simpa using hY⟩
        (by convert hE using 2; ring)
      exact ⟨s, 0, hs.1, by simpa using g1, by simpa using g2⟩
    · obtain ⟨u, v, ⟨hu, hv, huv⟩, hE⟩ := E2
      obtain ⟨t, g1, g2⟩ := line_rect (p1 := p1 + u * a1) (p2 := p2 + u * a2) n1 n2 hb (by convert hE using 2; ring)
      exact ⟨u, t, hu, g1, g2⟩
  · by_cases ha : a1 = 0 ∧ a2 = 0
    · obtain ⟨rfl, rfl⟩ := ha
      obtain ⟨u, v, ⟨hu, hv, huv⟩, hX⟩ := X
      obtain ⟨u', v', ⟨hu', hv', huv'⟩, hY⟩ := Y
      obtain ⟨u'', v'', -, hE⟩ := E2
      obtain ⟨s, hs, g1, g2⟩ := segment_rect (p1 := p1) (p2 := p2) (d1 := b1) (d2 := b2) n1 n2
        ⟨v, ⟨hv, by linarith⟩, by simpa using hX⟩ ⟨v', ⟨hv', by linarith⟩, by simpa using hY⟩
        (by convert hE using 2; ring)
      exact ⟨0, s, hs.1, by simpa using g1, by simpa using g2⟩
    · obtain ⟨u, v, ⟨hu, hv, huv⟩, hE⟩ := E0
      obtain ⟨t, g1, g2⟩ := line_rect (p1 := p1 + v * b1) (p2 := p2 + v * b2) n1 n2 ha (by convert hE using 2; ring)
      exact ⟨t, v, hv, by convert g1 using 2; ring, by convert g2 using 2; ring⟩
  · by_cases ha : b1 - a1 = 0 ∧ b2 - a2 = 0
    · obtain ⟨e1, e2⟩ := ha
      obtain rfl := sub_eq_zero.1 e1
      obtain rfl := sub_eq_zero.1 e2
      obtain ⟨u, v, ⟨hu, hv, huv⟩, hX⟩ := X
      obtain ⟨u', v', ⟨hu', hv', huv'⟩, hY⟩ := Y
      obtain ⟨u'', v'', -, hE⟩ := E0
      obtain ⟨s, hs, g1, g2⟩ := segment_rect (p1 := p1) (p2 := p2) (d1 := b1) (d2 := b2) n1 n2
        ⟨u + v, ⟨by linarith, by linarith⟩, by convert hX using 2; ring⟩
        ⟨u' + v', ⟨by linarith, by linarith⟩, by convert hY using 2; ring⟩
        (by convert hE using 2; ring)
      exact ⟨s, 0, by linarith [hs.2], by simpa using g1, by simpa using g2⟩
    · obtain ⟨u, v, ⟨hu, hv, huv⟩, hE⟩ := E1
      obtain ⟨t, g1, g2⟩ := line_rect (p1 := p1 + (u + v) * a1) (p2 := p2 + (u + v) * a2) n1 n2 ha
        (by convert hE using 2; ring)
      exact ⟨u + v - t, t, by linarith, by convert g1 using 2; ring, by convert g2 using 2; ring⟩

/-- Three slabs have a common point on a line. -/
theorem line_box {p1 d1 h1 p2 d2 h2 p3 d3 h3 : K} (n1 : 0 ≤ h1) (n2 : 0 ≤ h2) (n3 : 0 ≤ h3)
    (X : d1 = 0 → |p1| ≤ h1) (Y : d2 = 0 → |p2| ≤ h2) (Z : d3 = 0 → |p3| ≤ h3)
    (E12 : |-d2 * p1 + d1 * p2| ≤ h1 * |d2| + h2 * |d1|) (E13 : |-d3 * p1 + d1 * p3| ≤ h1 * |d3| + h3 * |d1|)
    (E23 : |-d3 * p2 + d2 * p3| ≤ h2 * |d3| + h3 * |d2|) :
    ∃ t, |p1 + t * d1| ≤ h1 ∧ |p2 + t * d2| ≤ h2 ∧ |p3 + t * d3| ≤ h3 := by
  have pair : ∀ {p d h p' d' h' : K}, 0 ≤ h → 0 ≤ h' → (d = 0 → |p| ≤ h) → (d' = 0 → |p'| ≤ h') →
      |-d' * p + d * p'| ≤ h * |d'| + h' * |d| → ∃ t, |p + t * d| ≤ h ∧ |p' + t * d'| ≤ h' := by
    intro p d h p' d' h' a a' x x' e
    by_cases hd : d = 0 ∧ d' = 0
    · exact ⟨0, by simpa using x hd.1, by simpa using x' hd.2⟩
    · exact line_rect a a' hd e
  exact helly1 (fun i => match i with
      | 0 => fun t => |p1 + t * d1| ≤ h1
      | 1 => fun t => |p2 + t * d2| ≤ h2
      | 2 => fun t => |p3 + t * d3| ≤ h3)
      (by
        intro i
        match i with
        | 0 => exact convex_line _ _ _
        | 1 => exact convex_line _ _ _
        | 2 => exact convex_line _ _ _) (pair n1 n2 X Y E12) (pair n1 n3 X Z E13) (pair n2 n3 Y Z E23)

/-- Helly in dimension two for the three half-planes of the triangle and three slabs. -/
theorem helly2 (f : Fin 6 → K → K → Prop) (hf : ∀ i, Convex K {x : K × K | f i x.1 x.2})
    (h : ∀ i j k : Fin 6, i < j → j < k → ∃ u v, f i u v ∧ f j u v ∧ f k u v) : ∃ u v, ∀ i, f i u v := by
  have := Convex.helly_theorem (𝕜 := K) (E := K × K) (F := fun i => {x : K × K | f i x.1 x.2}) (s := Finset.univ)
    (by simp) (fun i _ => hf i) (by
      intro I _ hI
      have h2 : Module.finrank K (K × K) = 2 := by simp
      rw [h2] at hI
      have key : ∀ I : Finset (Fin 6), I.card = 3 → ∃ i j k : Fin 6, i < j ∧ j < k ∧ I = {i, j, k} := by decide
      obtain ⟨i, j, k, h1, h2, rfl⟩ := key I hI
      obtain ⟨u, v, h⟩ := h i j k h1 h2
      exact ⟨(u, v), by simpa using h⟩)
  obtain ⟨t, ht⟩ := this
  simp only [Finset.mem_univ, Set.iInter_true, Set.mem_iInter, Set.mem_setOf_eq] at ht
  exact ⟨t.1, t.2, ht⟩

/-- The projections of triangle and box on the axis `n` overlap. -/
def Hit (p a b h : V3 K) (n : V3 K) : Prop :=
  ∃ u v, InT u v ∧ |n.x * (p.x + u * a.x + v * b.x) + n.y * (p.y + u * a.y + v * b.y) + n.z * (p.z + u * a.z + v * b.z)| ≤
    h.x * |n.x| + h.y * |n.y| + h.z * |n.z|

/-- Three slabs have a common point in the plane of the triangle. -/
theorem sss {p a b h : V3 K} (hx : 0 ≤ h.x) (hy : 0 ≤ h.y) (hz : 0 ≤ h.z)
    (X : Hit p a b h ⟨1, 0, 0⟩) (Y : Hit p a b h ⟨0, 1, 0⟩) (Z : Hit p a b h ⟨0, 0, 1⟩)
    (A1 : Hit p a b h ⟨0, -a.z, a.y⟩) (A2 : Hit p a b h ⟨a.z, 0, -a.x⟩) (A3 : Hit p a b h ⟨-a.y, a.x, 0⟩)
    (B1 : Hit p a b h ⟨0, -b.z, b.y⟩) (B2 : Hit p a b h ⟨b.z, 0, -b.x⟩) (B3 : Hit p a b h ⟨-b.y, b.x, 0⟩)
    (N : Hit p a b h ⟨a.y * b.z - a.z * b.y, a.z * b.x - a.x * b.z, a.x * b.y - a.y * b.x⟩) :
    ∃ u v, |p.x + u * a.x + v * b.x| ≤ h.x ∧ |p.y + u * a.y + v * b.y| ≤ h.y ∧ |p.z + u * a.z + v * b.z| ≤ h.z := by
  set n1 := a.y * b.z - a.z * b.y with e1
  set n2 := a.z * b.x - a.x * b.z with e2
  set n3 := a.x * b.y - a.y * b.x with e3
  by_cases hn : n1 = 0 ∧ n2 = 0 ∧ n3 = 0
  · obtain ⟨z1, z2, z3⟩ := hn
    by_cases ha : a.x = 0 ∧ a.y = 0 ∧ a.z = 0
    · obtain ⟨ax, ay, az⟩ := ha
      simp only [Hit, ax, ay, az] at *
      obtain ⟨u, v, ht, X⟩ := X
      obtain ⟨u1, v1, ht1, Y⟩ := Y
      obtain ⟨u2, v2, ht2, Z⟩ := Z
      obtain ⟨u3, v3, -, B1⟩ := B1
      obtain ⟨u4, v4, -, B2⟩ := B2
      obtain ⟨u5, v5, -, B3⟩ := B3
      obtain ⟨t, g1, g2, g3⟩ := line_box (p1 := p.x) (d1 := b.x) (p2 := p.y) (d2 := b.y) (p3 := p.z) (d3 := b.z) hx hy hz
        (by intro e; simpa [e] using X) (by intro e; simpa [e] using Y) (by intro e; simpa [e] using Z)
        (by refine le_trans (le_of_eq (congrArg abs ?_)) (B3.trans (le_of_eq ?_)) <;> [ring; (simp only [abs_neg, abs_zero]; ring)])
        (by rw [← abs_neg]; refine le_trans (le_of_eq (congrArg abs ?_)) (B2.trans (le_of_eq ?_)) <;> [ring; (simp only [abs_neg, abs_zero]; ring)])
        (by refine le_trans (le_of_eq (congrArg abs ?_)) (B1.trans (le_of_eq ?_)) <;> [ring; (simp only [abs_neg, abs_zero]; ring)])
      exact ⟨0, t, by simpa using g1, by simpa using g2, by simpa using g3⟩
    · -- `b` is a multiple of `a`
      obtain ⟨c, hc1, hc2, hc3⟩ : ∃ c, b.x = c * a.x ∧ b.y = c * a.y ∧ b.z = c * a.z := by
        by_cases h1 : a.x = 0
        · by_cases h2 : a.y = 0
          · have h3 : a.z ≠ 0 := fun h => ha ⟨h1, h2, h⟩
            refine ⟨b.z / a.z, ?_, ?_, by field_simp⟩ <;> field_simp
            · linear_combination z2
            · linear_combination -z1
          · refine ⟨b.y / a.y, ?_, by field_simp, ?_⟩ <;> field_simp
            · linear_combination -z3
            · linear_combination z1
        · refine ⟨b.x / a.x, by field_simp, ?_, ?_⟩ <;> field_simp
          · linear_combination z3
          · linear_combination -z2
      simp only [Hit, hc1, hc2, hc3] at *
      obtain ⟨u, v, ht, X⟩ := X
      obtain ⟨u1, v1, ht1, Y⟩ := Y
      obtain ⟨u2, v2, ht2, Z⟩ := Z
      obtain ⟨u3, v3, -, A1⟩ := A1
      obtain ⟨u4, v4, -, A2⟩ := A2
      obtain ⟨u5, v5, -, A3⟩ := A3
      obtain ⟨t, g1, g2, g3⟩ := line_box (p1 := p.x) (d1 := a.x) (p2 := p.y) (d2 := a.y) (p3 := p.z) (d3 := a.z) hx hy hz
        (by intro e; simpa [e] using X) (by intro e; simpa [e] using Y) (by intro e; simpa [e] using Z)
        (by refine le_trans (le_of_eq (congrArg abs ?_)) (A3.trans (le_of_eq ?_)) <;> [ring; (simp only [abs_neg, abs_zero]; ring)])
        (by rw [← abs_neg]; refine le_trans (le_of_eq (congrArg abs ?_)) (A2.trans (le_of_eq ?_)) <;> [ring; (simp only [abs_neg, abs_zero]; ring)])
        (by refine le_trans (le_of_eq (congrArg abs ?_)) (A1.trans (le_of_eq ?_)) <;> [ring; (simp only [abs_neg, abs_zero]; ring)])
      exact ⟨t, 0, by simpa using g1, by simpa using g2, by simpa using g3⟩
  · obtain ⟨u, v, -, N⟩ := N
    obtain ⟨q1, q2, q3, b1, b2, b3, e⟩ := exists_box hx hy hz N
    have hD : n1 * n1 + n2 * n2 + n3 * n3 ≠ 0 := by
      intro h0
      apply hn
      have s1 := mul_self_nonneg n1
      have s2 := mul_self_nonneg n2
      have s3 := mul_self_nonneg n3
      refine ⟨mul_self_eq_zero.1 ?_, mul_self_eq_zero.1 ?_, mul_self_eq_zero.1 ?_⟩ <;> linarith
    set D := n1 * n1 + n2 * n2 + n3 * n3 with eD
    set w1 := q1 - p.x with ew1
    set w2 := q2 - p.y with ew2
    set w3 := q3 - p.z with ew3
    have hw : n1 * w1 + n2 * w2 + n3 * w3 = 0 := by
      rw [ew1, ew2, ew3]
      linear_combination e + u * (n1 * a.x + n2 * a.y + n3 * a.z) + v * (n1 * b.x + n2 * b.y + n3 * b.z)
    set U := (w2 * b.z - w3 * b.y) * n1 + (w3 * b.x - w1 * b.z) * n2 + (w1 * b.y - w2 * b.x) * n3 with eU
    set V := (a.y * w3 - a.z * w2) * n1 + (a.z * w1 - a.x * w3) * n2 + (a.x * w2 - a.y * w1) * n3 with eV
    have k1 : U * a.x + V * b.x = w1 * D := by
      have : w1 * D = U * a.x + V * b.x + (n1 * w1 + n2 * w2 + n3 * w3) * n1 := by
        rw [eD, eU, eV, e1, e2, e3]; ring
      rw [this, hw]; ring
    have k2 : U * a.y + V * b.y = w2 * D := by
      have : w2 * D = U * a.y + V * b.y + (n1 * w1 + n2 * w2 + n3 * w3) * n2 := by
        rw [eD, eU, eV, e1, e2, e3]; ring
      rw [this, hw]; ring
    have k3 : U * a.z + V * b.z = w3 * D := by
      have : w3 * D = U * a.z + V * b.z + (n1 * w1 + n2 * w2 + n3 * w3) * n3 := by
        rw [eD, eU, eV, e1, e2, e3]; ring
      rw [this, hw]; ring
    refine ⟨U / D, V / D, ?_, ?_, ?_⟩
    · rw [show p.x + U / D * a.x + V / D * b.x = q1 by
        have : U / D * a.x + V / D * b.x = w1 := by field_simp; linear_combination k1
        rw [add_assoc, this, ew1]; ring]
      exact b1
    · rw [show p.y + U / D * a.y + V / D * b.y = q2 by
        have : U / D * a.y + V / D * b.y = w2 := by field_simp; linear_combination k2
        rw [add_assoc, this, ew2]; ring]
      exact b2
    · rw [show p.z + U / D * a.z + V / D * b.z = q3 by
        have : U / D * a.z + V / D * b.z = w3 := by field_simp; linear_combination k3
        rw [add_assoc, this, ew3]; ring]
      exact b3

/-- If all thirteen projections overlap, the triangle `p + u a + v b` and the box with half sides `h` centred at
the origin have a common point. -/
theorem exact_param {p a b h : V3 K} (hx : 0 ≤ h.x) (hy : 0 ≤ h.y) (hz : 0 ≤ h.z)
    (X : Hit p a b h ⟨1, 0, 0⟩) (Y : Hit p a b h ⟨0, 1, 0⟩) (Z : Hit p a b h ⟨0, 0, 1⟩)
    (A1 : Hit p a b h ⟨0, -a.z, a.y⟩) (A2 : Hit p a b h ⟨a.z, 0, -a.x⟩) (A3 : Hit p a b h ⟨-a.y, a.x, 0⟩)
    (B1 : Hit p a b h ⟨0, -b.z, b.y⟩) (B2 : Hit p a b h ⟨b.z, 0, -b.x⟩) (B3 : Hit p a b h ⟨-b.y, b.x, 0⟩)
    (C1 : Hit p a b h ⟨0, -(b.z - a.z), b.y - a.y⟩) (C2 : Hit p a b h ⟨b.z - a.z, 0, -(b.x - a.x)⟩)
    (C3 : Hit p a b h ⟨-(b.y - a.y), b.x - a.x, 0⟩)
    (N : Hit p a b h ⟨a.y * b.z - a.z * b.y, a.z * b.x - a.x * b.z, a.x * b.y - a.y * b.x⟩) :
    ∃ u v, InT u v ∧ |p.x + u * a.x + v * b.x| ≤ h.x ∧ |p.y + u * a.y + v * b.y| ≤ h.y ∧ |p.z + u * a.z + v * b.z| ≤ h.z := by
  have S := sss hx hy hz X Y Z A1 A2 A3 B1 B2 B3 N
  have X' : ∃ u v, InT u v ∧ |p.x + u * a.x + v * b.x| ≤ h.x := by
    obtain ⟨u, v, ht, g⟩ := X; exact ⟨u, v, ht, by simpa using g⟩
  have Y' : ∃ u v, InT u v ∧ |p.y + u * a.y + v * b.y| ≤ h.y := by
    obtain ⟨u, v, ht, g⟩ := Y; exact ⟨u, v, ht, by simpa using g⟩
  have Z' : ∃ u v, InT u v ∧ |p.z + u * a.z + v * b.z| ≤ h.z := by
    obtain ⟨u, v, ht, g⟩ := Z; exact ⟨u, v, ht, by simpa using g⟩
  have XY := hss hx hy X' Y'
    (by obtain ⟨u, v, ht, g⟩ := A3; exact ⟨u, v, ht, by simpa using g⟩)
    (by obtain ⟨u, v, ht, g⟩ := C3; exact ⟨u, v, ht, by simpa only [abs_neg, abs_zero, mul_zero, zero_mul, add_zero] using g⟩)
    (by obtain ⟨u, v, ht, g⟩ := B3; exact ⟨u, v, ht, by simpa using g⟩)
  have XZ := hss hx hz X' Z'
    (by
      obtain ⟨u, v, ht, g⟩ := A2
      refine ⟨u, v, ht, ?_⟩
      rw [← abs_neg]
      refine le_trans (le_of_eq (congrArg abs ?_)) (g.trans (le_of_eq ?_)) <;> [ring; (simp only [abs_neg, abs_zero]; ring)])
    (by
      obtain ⟨u, v, ht, g⟩ := C2
      refine ⟨u, v, ht, ?_⟩
      rw [← abs_neg]
      refine le_trans (le_of_eq (congrArg abs ?_)) (g.trans (le_of_eq ?_)) <;> [ring; (simp only [abs_neg, abs_zero]; ring)])
    (by
      obtain ⟨u, v, ht, g⟩ := B2
      refine ⟨u, v, ht, ?_⟩
      rw [← abs_neg]
      refine le_trans (le_of_eq (congrArg abs ?_)) (g.trans (le_of_eq ?_)) <;> [ring; (simp only [abs_neg, abs_zero]; ring)])
  have YZ := hss hy hz Y' Z'
    (by
      obtain ⟨u, v, ht, g⟩ := A1
      refine ⟨u, v, ht, ?_⟩
      refine le_trans (le_of_eq (congrArg abs ?_)) (g.trans (le_of_eq ?_)) <;> [ring; (simp only [abs_neg, abs_zero]; ring)])
    (by
      obtain ⟨u, v, ht, g⟩ := C1
      refine ⟨u, v, ht, ?_⟩
      refine le_trans (le_of_eq (congrArg abs ?_)) (g.trans (le_of_eq ?_)) <;> [ring; (simp only [abs_neg, abs_zero]; ring)])
    (by
      obtain ⟨u, v, ht, g⟩ := B1
      refine ⟨u, v, ht, ?_⟩
      refine le_trans (le_of_eq (congrArg abs ?_)) (g.trans (le_of_eq ?_)) <;> [ring; (simp only [abs_neg, abs_zero]; ring)])
  have slab : ∀ p a b h : K, Convex K {x : K × K | |p + x.1 * a + x.2 * b| ≤ h} := by
    intro p a b h
    refine convex_abs (fun x : K × K => p + x.1 * a + x.2 * b) h ?_
    intro x y s t hst
    simp only [Prod.fst_add, Prod.smul_fst, Prod.snd_add, Prod.smul_snd, smul_eq_mul]
    linear_combination -p * hst
  obtain ⟨u, v, hall⟩ := helly2 (fun i => match i with
      | 0 => fun u _ => 0 ≤ u
      | 1 => fun _ v => 0 ≤ v
      | 2 => fun u v => u + v ≤ 1
      | 3 => fun u v => |p.x + u * a.x + v * b.x| ≤ h.x
      | 4 => fun u v => |p.y + u * a.y + v * b.y| ≤ h.y
      | 5 => fun u v => |p.z + u * a.z + v * b.z| ≤ h.z)
    (by
      intro i
      match i with
      | 0 =>
        have := convex_slab (K := K) (fun x : K × K => -x.1) 0 (by intro x y s t _; simp; ring)
        simpa using this
      | 1 =>
        have := convex_slab (K := K) (fun x : K × K => -x.2) 0 (by intro x y s t _; simp; ring)
        simpa using this
      | 2 => exact convex_slab (fun x : K × K => x.1 + x.2) 1 (by intro x y s t _; simp; ring)
      | 3 => exact slab _ _ _ _
      | 4 => exact slab _ _ _ _
      | 5 => exact slab _ _ _ _)
    (by
      intro i j k hij hjk
      obtain ⟨xu, xv, ⟨x0, x1, x2⟩, x3⟩ := X'
      obtain ⟨yu, yv, ⟨y0, y1, y2⟩, y3⟩ := Y'
      obtain ⟨zu, zv, ⟨z0, z1, z2⟩, z3⟩ := Z'
      have key : ∀ i j k : Fin 6, i < j → j < k → (i, j, k) ∈ ([(0, 1, 2), (0, 1, 3), (0, 1, 4), (0, 1, 5), (0, 2, 3), (0, 2, 4), (0, 2, 5), (1, 2, 3), (1, 2, 4), (1, 2, 5), (0, 3, 4), (0, 3, 5), (0, 4, 5), (1, 3, 4), (1, 3, 5), (1, 4, 5), (2, 3, 4), (2, 3, 5), (2, 4, 5), (3, 4, 5)] : List (Fin 6 × Fin 6 × Fin 6)) := by
        decide
      have key := key i j k hij hjk
      simp only [List.mem_cons, Prod.mk.injEq, List.not_mem_nil, or_false] at key
      rcases key with ⟨rfl, rfl, rfl⟩ |
        ⟨rfl, rfl, rfl⟩ |
        ⟨rfl, rfl, rfl⟩ |
        ⟨rfl, rfl, rfl⟩ |
        ⟨rfl, rfl, rfl⟩ |
        ⟨rfl, rfl, rfl⟩ |
        ⟨rfl, rfl, rfl⟩ |
        ⟨rfl, rfl, rfl⟩ |
        ⟨rfl, rfl, rfl⟩ |
        ⟨rfl, rfl, rfl⟩ |
        ⟨rfl, rfl, rfl⟩ |
        ⟨rfl, rfl, rfl⟩ |
        ⟨rfl, rfl, rfl⟩ |
        ⟨rfl, rfl, rfl⟩ |
        ⟨rfl, rfl, rfl⟩ |
        ⟨rfl, rfl, rfl⟩ |
        ⟨rfl, rfl, rfl⟩ |
        ⟨rfl, rfl, rfl⟩ |
        ⟨rfl, rfl, rfl⟩ |
        ⟨rfl, rfl, rfl⟩
      · exact ⟨0, 0, le_rfl, le_rfl, by simp⟩
      · exact ⟨xu, xv, x0, x1, x3⟩
      · exact ⟨yu, yv, y0, y1, y3⟩
      · exact ⟨zu, zv, z0, z1, z3⟩
      · exact ⟨xu, xv, x0, x2, x3⟩
      · exact ⟨yu, yv, y0, y2, y3⟩
      · exact ⟨zu, zv, z0, z2, z3⟩
      · exact ⟨xu, xv, x1, x2, x3⟩
      · exact ⟨yu, yv, y1, y2, y3⟩
      · exact ⟨zu, zv, z1, z2, z3⟩
      · exact XY.1
      · exact XZ.1
      · exact YZ.1
      · exact XY.2.1
      · exact XZ.2.1
      · exact YZ.2.1
      · exact XY.2.2
      · exact XZ.2.2
      · exact YZ.2.2
      · exact S)
  exact ⟨u, v, ⟨hall 0, hall 1, hall 2⟩, hall 3, hall 4, hall 5⟩

end QuESo.SAT
