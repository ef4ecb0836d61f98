import Verif.Proofs.SAT
import Mathlib.Tactic.Positivity

/-!
# Lemmas about boxes, rays and triangles
-/
namespace QuESo.AABB
open QuESo.Spec QuESo.SAT
variable {K : Type _} [Field K] [LinearOrder K]

theorem intersectBox_iff (a b : Box K) : intersectBox a b = true ↔
    (a.lower.x ≤ b.upper.x ∧ b.lower.x ≤ a.upper.x) ∧ (a.lower.y ≤ b.upper.y ∧ b.lower.y ≤ a.upper.y) ∧
      (a.lower.z ≤ b.upper.z ∧ b.lower.z ≤ a.upper.z) := by
  unfold intersectBox
  split_ifs with h1 h2 h3 <;> simp only [not_or, not_lt, Bool.false_eq_true, false_iff, true_iff] at *
  · rintro ⟨⟨g1, g2⟩, -, -⟩
    rcases h1 with h | h
    · exact absurd h (not_lt.2 g1)
    · exact absurd h (not_lt.2 g2)
  · rintro ⟨-, ⟨g1, g2⟩, -⟩
    rcases h2 with h | h
    · exact absurd h (not_lt.2 g1)
    · exact absurd h (not_lt.2 g2)
  · rintro ⟨-, -, g1, g2⟩
    rcases h3 with h | h
    · exact absurd h (not_lt.2 g1)
    · exact absurd h (not_lt.2 g2)
  · exact ⟨h1, h2, h3⟩

variable [IsStrictOrderedRing K]

theorem checkAxis_iff (w0 w1 w2 h n : V3 K) :
    checkAxis ⟨1, 0, 0⟩ ⟨0, 1, 0⟩ ⟨0, 0, 1⟩ w0 w1 w2 h n = true ↔
    (V3.dot w0 n ≤ h.x * |n.x| + h.y * |n.y| + h.z * |n.z| ∨ V3.dot w1 n ≤ h.x * |n.x| + h.y * |n.y| + h.z * |n.z| ∨
      V3.dot w2 n ≤ h.x * |n.x| + h.y * |n.y| + h.z * |n.z|) ∧
    (-(h.x * |n.x| + h.y * |n.y| + h.z * |n.z|) ≤ V3.dot w0 n ∨ -(h.x * |n.x| + h.y * |n.y| + h.z * |n.z|) ≤ V3.dot w1 n ∨
      -(h.x * |n.x| + h.y * |n.y| + h.z * |n.z|) ≤ V3.dot w2 n) := by
  unfold checkAxis V3.dot
  simp only [one_mul, zero_mul, add_zero, zero_add]
  split_ifs with hc
  · simp only [Bool.false_eq_true, false_iff, not_and_or, not_or, not_le]
    rcases lt_max_iff.1 hc with h1 | h1
    · right
      have := lt_neg.1 h1
      simp only [max_lt_iff] at this
      exact ⟨this.1.1, this.1.2, this.2⟩
    · left
      simp only [lt_min_iff] at h1
      exact ⟨h1.1.1, h1.1.2, h1.2⟩
  · simp only [true_iff]
    have := not_lt.1 hc
    simp only [max_le_iff, min_le_iff] at this
    refine ⟨by tauto, ?_⟩
    have h2 := neg_le.1 this.1
    simp only [le_max_iff] at h2
    tauto

theorem hit_of_check {w0 w1 w2 h n : V3 K} (hx : 0 ≤ h.x) (hy : 0 ≤ h.y) (hz : 0 ≤ h.z)
    (hc : checkAxis ⟨1, 0, 0⟩ ⟨0, 1, 0⟩ ⟨0, 0, 1⟩ w0 w1 w2 h n = true) : Hit w0 (w1 - w0) (w2 - w0) h n := by
  obtain ⟨h1, h2⟩ := (checkAxis_iff _ _ _ _ _).1 hc
  obtain ⟨u, v, ht, g⟩ := three (by positivity) h1 h2
  refine ⟨u, v, ht, ?_⟩
  refine le_trans (le_of_eq (congrArg abs ?_)) g
  simp only [V3.dot, V3.sub_x, V3.sub_y, V3.sub_z]
  ring

theorem hit_neg {p a b h : V3 K} {n m : V3 K} (hn : Hit p a b h n) (h1 : m.x = -n.x) (h2 : m.y = -n.y) (h3 : m.z = -n.z) :
    Hit p a b h m := by
  obtain ⟨u, v, ht, g⟩ := hn
  refine ⟨u, v, ht, ?_⟩
  rw [h1, h2, h3, abs_neg, abs_neg, abs_neg]
  refine le_trans (le_of_eq ?_) g
  rw [← abs_neg]
  congr 1
  ring

theorem hit_congr {p a b h : V3 K} {n m : V3 K} (hn : Hit p a b h n) (h1 : m.x = n.x) (h2 : m.y = n.y) (h3 : m.z = n.z) :
    Hit p a b h m := by
  have : m = n := by cases m; cases n; simp_all
  rw [this]; exact hn

/-- The extent that the triangle test uses. -/
def extent (b : Box K) (tol : K) : V3 K := ⟨(b.upper.x - b.lower.x) / 2 - tol, (b.upper.y - b.lower.y) / 2 - tol,
    (b.upper.z - b.lower.z) / 2 - tol⟩

theorem intersectTri_all (b : Box K) (v0 v1 v2 : V3 K) (tol : K) : intersectTri b v0 v1 v2 tol = true ↔
    ∀ n ∈ axes v0 v1 v2, checkAxis ⟨1, 0, 0⟩ ⟨0, 1, 0⟩ ⟨0, 0, 1⟩ (v0 - centre b) (v1 - centre b) (v2 - centre b) (extent b tol) n = true := by
  unfold intersectTri
  simp only [List.all_eq_true]
  rfl

omit [IsStrictOrderedRing K] in
theorem axes_eq (v0 v1 v2 : V3 K) : axes v0 v1 v2 =
    [⟨0, -(v1.z - v0.z), v1.y - v0.y⟩, ⟨0, -(v2.z - v1.z), v2.y - v1.y⟩, ⟨0, -(v0.z - v2.z), v0.y - v2.y⟩,
     ⟨v1.z - v0.z, 0, -(v1.x - v0.x)⟩, ⟨v2.z - v1.z, 0, -(v2.x - v1.x)⟩, ⟨v0.z - v2.z, 0, -(v0.x - v2.x)⟩,
     ⟨-(v1.y - v0.y), v1.x - v0.x, 0⟩, ⟨-(v2.y - v1.y), v2.x - v1.x, 0⟩, ⟨-(v0.y - v2.y), v0.x - v2.x, 0⟩,
     ⟨1, 0, 0⟩, ⟨0, 1, 0⟩, ⟨0, 0, 1⟩,
     ⟨(v1.y - v0.y) * (v2.z - v1.z) - (v1.z - v0.z) * (v2.y - v1.y), (v1.z - v0.z) * (v2.x - v1.x) - (v1.x - v0.x) * (v2.z - v1.z),
      (v1.x - v0.x) * (v2.y - v1.y) - (v1.y - v0.y) * (v2.x - v1.x)⟩] := by
  unfold axes
  simp only [V3.sub_x, V3.sub_y, V3.sub_z, one_mul, zero_mul, sub_zero, zero_sub, sub_self, neg_zero]

theorem comb_gt {u v w r s0 s1 s2 : K} (hu : 0 ≤ u) (hv : 0 ≤ v) (hw : 0 ≤ w) (hs : u + v + w = 1) (g0 : r < s0) (g1 : r < s1)
    (g2 : r < s2) : r < u * s0 + v * s1 + w * s2 := by
  have a0 := mul_le_mul_of_nonneg_left g0.le hu
  have a1 := mul_le_mul_of_nonneg_left g1.le hv
  have a2 := mul_le_mul_of_nonneg_left g2.le hw
  have e : u * r + v * r + w * r = r := by rw [← add_mul, ← add_mul, hs, one_mul]
  rcases hu.eq_or_lt with h | h
  · rcases hv.eq_or_lt with h' | h'
    · have : w = 1 := by linarith
      rw [← h, ← h', this]; linarith
    · have := mul_lt_mul_of_pos_left g1 h'
      linarith
  · have := mul_lt_mul_of_pos_left g0 h
    linarith

/-- A common point of triangle and (shrunk) box: no axis separates. -/
theorem check_of_point {b : Box K} {v0 v1 v2 q : V3 K} {tol : K} (hq : InTriangle v0 v1 v2 q)
    (hb : InBoxTol b.lower b.upper (-tol) q) (n : V3 K) :
    checkAxis ⟨1, 0, 0⟩ ⟨0, 1, 0⟩ ⟨0, 0, 1⟩ (v0 - centre b) (v1 - centre b) (v2 - centre b) (extent b tol) n = true := by
  obtain ⟨u, v, w, hu, hv, hw, hs, hx, hy, hz⟩ := hq
  obtain ⟨⟨x1, x2⟩, ⟨y1, y2⟩, z1, z2⟩ := hb
  rw [checkAxis_iff]
  set c := centre b with hc
  set h := extent b tol with hh
  have cx : |q.x - c.x| ≤ h.x := by
    rw [abs_le, hc, hh]; simp only [centre, extent]; constructor <;> linarith
  have cy : |q.y - c.y| ≤ h.y := by
    rw [abs_le, hc, hh]; simp only [centre, extent]; constructor <;> linarith
  have cz : |q.z - c.z| ≤ h.z := by
    rw [abs_le, hc, hh]; simp only [centre, extent]; constructor <;> linarith
  set r := h.x * |n.x| + h.y * |n.y| + h.z * |n.z| with hr
  set P := V3.dot (q - c) n with hP
  have hPr : |P| ≤ r := by
    rw [hP, hr]
    simp only [V3.dot, V3.sub_x, V3.sub_y, V3.sub_z]
    refine (abs_add_three _ _ _).trans ?_
    rw [abs_mul, abs_mul, abs_mul]
    exact add_le_add (add_le_add (mul_le_mul_of_nonneg_right cx (abs_nonneg _)) (mul_le_mul_of_nonneg_right cy (abs_nonneg _)))
      (mul_le_mul_of_nonneg_right cz (abs_nonneg _))
  have hP' : P = u * V3.dot (v0 - c) n + v * V3.dot (v1 - c) n + w * V3.dot (v2 - c) n := by
    rw [hP]
    simp only [V3.dot, V3.sub_x, V3.sub_y, V3.sub_z, hx, hy, hz]
    linear_combination (c.x * n.x + c.y * n.y + c.z * n.z) * hs
  rw [abs_le] at hPr
  generalize V3.dot (v0 - c) n = s0 at *
  generalize V3.dot (v1 - c) n = s1 at *
  generalize V3.dot (v2 - c) n = s2 at *
  constructor
  · by_contra hcon
    push Not at hcon
    obtain ⟨g0, g1, g2⟩ := hcon
    have := comb_gt hu hv hw hs g0 g1 g2
    linarith
  · by_contra hcon
    push Not at hcon
    obtain ⟨g0, g1, g2⟩ := hcon
    have := comb_gt hu hv hw hs (neg_lt_neg g0) (neg_lt_neg g1) (neg_lt_neg g2)
    simp only [mul_neg, neg_neg] at this
    linarith

/-- If no axis separates, there is a common point. -/
theorem point_of_check {b : Box K} {v0 v1 v2 : V3 K} {tol : K} (hx : 0 ≤ (extent b tol).x) (hy : 0 ≤ (extent b tol).y)
    (hz : 0 ≤ (extent b tol).z) (hc : intersectTri b v0 v1 v2 tol = true) :
    ∃ q, InTriangle v0 v1 v2 q ∧ InBoxTol b.lower b.upper (-tol) q := by
  rw [intersectTri_all, axes_eq] at hc
  have H : ∀ n ∈ _, _ := fun n hn => hit_of_check hx hy hz (hc n hn)
  simp only [List.mem_cons, List.not_mem_nil, or_false, forall_eq_or_imp, forall_eq] at H
  obtain ⟨a1, c1, b1, a2, c2, b2, a3, c3, b3, X, Y, Z, N⟩ := H
  obtain ⟨u, v, ⟨hu, hv, huv⟩, gx, gy, gz⟩ := exact_param hx hy hz X Y Z
    (hit_congr a1 rfl (by simp) (by simp)) (hit_congr a2 (by simp) rfl (by simp)) (hit_congr a3 (by simp) (by simp) rfl)
    (hit_neg b1 (by simp) (by simp) (by simp)) (hit_neg b2 (by simp) (by simp) (by simp)) (hit_neg b3 (by simp) (by simp) (by simp))
    (hit_congr c1 rfl (by simp) (by simp)) (hit_congr c2 (by simp) rfl (by simp)) (hit_congr c3 (by simp) (by simp) rfl)
    (hit_congr N (by simp; ring) (by simp; ring) (by simp; ring))
  refine ⟨⟨(1 - u - v) * v0.x + u * v1.x + v * v2.x, (1 - u - v) * v0.y + u * v1.y + v * v2.y,
    (1 - u - v) * v0.z + u * v1.z + v * v2.z⟩, ⟨1 - u - v, u, v, by linarith, hu, hv, by ring, rfl, rfl, rfl⟩, ?_⟩
  simp only [extent, centre, V3.sub_x, V3.sub_y, V3.sub_z, abs_le] at gx gy gz
  refine ⟨⟨?_, ?_⟩, ⟨?_, ?_⟩, ⟨?_, ?_⟩⟩ <;> simp only
  · linarith [gx.1]
  · linarith [gx.2]
  · linarith [gy.1]
  · linarith [gy.2]
  · linarith [gz.1]
  · linarith [gz.2]

end QuESo.AABB
