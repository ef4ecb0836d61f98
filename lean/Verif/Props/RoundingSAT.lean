import Verif.Model.RoundingSAT
import Verif.Props.RoundingClipper
import Verif.Props.AABB
import Verif.Spec.RoundingSAT

/-!
# C116: the triangle-box test in floating-point arithmetic
-/
namespace QuESo.Props
open QuESo.Spec QuESo.Round

section
variable {rnd : ℚ → ℚ} {eps : ℚ} {big : Nat}

/-- The rounded sum of three products. -/
theorem dot_near (hr : IsRounding rnd eps big) (he : eps ≤ 1 / 1000) (fused : Bool) (a b : V3 ℚ) {S : ℚ} (hS : |a.x| * |b.x| + |a.y| * |b.y| + |a.z| * |b.z| ≤ S) :
    |dotR rnd fused a b - (a.x * b.x + a.y * b.y + a.z * b.z)| ≤ 6 * (eps * S) := by
  have e0 := eps_nonneg hr
  have x0 := mul_nonneg (abs_nonneg a.x) (abs_nonneg b.x)
  have y0 := mul_nonneg (abs_nonneg a.y) (abs_nonneg b.y)
  have z0 := mul_nonneg (abs_nonneg a.z) (abs_nonneg b.z)
  rw [← abs_mul] at x0 y0 z0
  rw [← abs_mul, ← abs_mul, ← abs_mul] at hS
  have hS0 : 0 ≤ S := by linarith
  have z : 0 ≤ eps * S := mul_nonneg e0 hS0
  unfold dotR
  generalize a.x * b.x = x at *
  generalize a.y * b.y = y at *
  generalize a.z * b.z = w at *
  have hx := rnd_near12 hr he (B := S) (a := 0) (v := x) (t := x) (by linarith) (by norm_num) (by simp)
  have hy := rnd_near12 hr he (B := S) (a := 0) (v := y) (t := y) (by linarith) (by norm_num) (by simp)
  have hw := rnd_near12 hr he (B := S) (a := 0) (v := w) (t := w) (by linarith) (by norm_num) (by simp)
  have sxy : |x + y| ≤ S := (abs_add_le x y).trans (by linarith)
  have sxyw : |x + y + w| ≤ S := (abs_add_le (x + y) w).trans (by linarith [abs_add_le x y])
  split
  · have h1 := rnd_near12 hr he (B := S) (a := 102 / 100) (v := y + rnd x) (t := x + y) sxy (by norm_num) (by
      have : y + rnd x - (x + y) = rnd x - x := by ring
      rw [this]; linarith)
    have h2 := rnd_near12 hr he (B := S) (a := 204 / 100) (v := w + rnd (y + rnd x)) (t := x + y + w) sxyw (by norm_num) (by
      have : w + rnd (y + rnd x) - (x + y + w) = rnd (y + rnd x) - (x + y) := by ring
      rw [this]; linarith)
    linarith
  · have h1 := rnd_near12 hr he (B := S) (a := 204 / 100) (v := rnd x + rnd y) (t := x + y) sxy (by norm_num) (by
      have : rnd x + rnd y - (x + y) = (rnd x - x) + (rnd y - y) := by ring
      rw [this]
      refine (abs_add_le _ _).trans ?_
      linarith)
    have h2 := rnd_near12 hr he (B := S) (a := 408 / 100) (v := rnd (rnd x + rnd y) + rnd w) (t := x + y + w) sxyw (by norm_num) (by
      have : rnd (rnd x + rnd y) + rnd w - (x + y + w) = (rnd (rnd x + rnd y) - (x + y)) + (rnd w - w) := by ring
      rw [this]
      refine (abs_add_le _ _).trans ?_
      linarith)
    linarith

theorem dot_unit (hr : IsRounding rnd eps big) (fused : Bool) (n : V3 ℚ) :
    dotR rnd fused ⟨1, 0, 0⟩ n = rnd n.x ∧ dotR rnd fused ⟨0, 1, 0⟩ n = rnd n.y ∧ dotR rnd fused ⟨0, 0, 1⟩ n = rnd n.z := by
  have z := rnd_zero hr
  unfold dotR
  cases fused <;> simp [z, hr.twice]

/-- One coordinate of a corner relative to the centre. -/
theorem shift_near (hr : IsRounding rnd eps big) (he : eps ≤ 1 / 1000) {l u v B : ℚ} (hl : |l| ≤ B) (hu : |u| ≤ B) (hv : |v| ≤ B) :
    |rnd (v - rnd (1 / 2 * rnd (l + u))) - (v - (l + u) / 2)| ≤ 41 / 10 * (eps * B) := by
  have e0 := eps_nonneg hr
  have hB : 0 ≤ B := (abs_nonneg _).trans hl
  have z : 0 ≤ eps * B := mul_nonneg e0 hB
  have b1 : |l + u| ≤ 2 * B := (abs_add_le _ _).trans (by linarith)
  have h1 : |rnd (l + u) - (l + u)| ≤ 2 * (eps * B) := by
    have := mul_le_mul_of_nonneg_left b1 e0
    linarith [hr.error (l + u)]
  have h2 := rnd_near12 hr he (B := B) (a := 1) (v := 1 / 2 * rnd (l + u)) (t := (l + u) / 2) (by rw [abs_le] at *; constructor <;> linarith) (by norm_num) (by rw [abs_le] at *; constructor <;> linarith)
  have h3 := rnd_near12 hr he (B := 2 * B) (a := 101 / 100) (v := v - rnd (1 / 2 * rnd (l + u))) (t := v - (l + u) / 2) (by rw [abs_le] at *; constructor <;> linarith) (by norm_num) (by
    rw [abs_le] at *; constructor <;> linarith)
  linarith

/-- One component of the extent. -/
theorem extent_near (hr : IsRounding rnd eps big) (he : eps ≤ 1 / 1000) {l u tol B : ℚ} (hl : |l| ≤ B) (hu : |u| ≤ B) (hlu : l ≤ u) (ht : 0 ≤ tol) (htB : tol ≤ B) :
    |rnd (rnd (rnd (u - l) / 2) - tol) - ((u - l) / 2 - tol)| ≤ 31 / 10 * (eps * B) := by
  have e0 := eps_nonneg hr
  have hB : 0 ≤ B := (abs_nonneg _).trans hl
  have z : 0 ≤ eps * B := mul_nonneg e0 hB
  have b1 : |u - l| ≤ 2 * B := by rw [abs_le] at *; constructor <;> linarith
  have h1 : |rnd (u - l) - (u - l)| ≤ 2 * (eps * B) := by
    have := mul_le_mul_of_nonneg_left b1 e0
    linarith [hr.error (u - l)]
  have h2 := rnd_near12 hr he (B := B) (a := 1) (v := rnd (u - l) / 2) (t := (u - l) / 2) (by rw [abs_le] at *; constructor <;> linarith) (by norm_num) (by rw [abs_le] at *; constructor <;> linarith)
  have h3 := rnd_near12 hr he (B := B) (a := 202 / 100) (v := rnd (rnd (u - l) / 2) - tol) (t := (u - l) / 2 - tol) (by rw [abs_le] at *; constructor <;> linarith) (by norm_num) (by
    rw [abs_le] at *; constructor <;> linarith)
  linarith

/-- Sums of products with errors in one factor. -/
theorem dot_diff {a a' n : V3 ℚ} {e : ℚ} (hx : |a.x - a'.x| ≤ e) (hy : |a.y - a'.y| ≤ e) (hz : |a.z - a'.z| ≤ e) :
    |(a.x * n.x + a.y * n.y + a.z * n.z) - (a'.x * n.x + a'.y * n.y + a'.z * n.z)| ≤ e * (|n.x| + |n.y| + |n.z|) := by
  have : (a.x * n.x + a.y * n.y + a.z * n.z) - (a'.x * n.x + a'.y * n.y + a'.z * n.z) = (a.x - a'.x) * n.x + (a.y - a'.y) * n.y + (a.z - a'.z) * n.z := by ring
  rw [this]
  have h1 := abs_add_le ((a.x - a'.x) * n.x + (a.y - a'.y) * n.y) ((a.z - a'.z) * n.z)
  have h2 := abs_add_le ((a.x - a'.x) * n.x) ((a.y - a'.y) * n.y)
  rw [abs_mul, abs_mul] at h2
  rw [abs_mul (a.z - a'.z)] at h1
  have k1 := mul_le_mul_of_nonneg_right hx (abs_nonneg n.x)
  have k2 := mul_le_mul_of_nonneg_right hy (abs_nonneg n.y)
  have k3 := mul_le_mul_of_nonneg_right hz (abs_nonneg n.z)
  linarith

/-- The projection of a corner to an axis. -/
theorem proj_near (hr : IsRounding rnd eps big) (he : eps ≤ 1 / 1000) (fused : Bool) {b : Box ℚ} {v n : V3 ℚ} {B : ℚ} (hl : Within B b.lower) (hu : Within B b.upper) (hv : Within B v) :
    |dotR rnd fused (diffR rnd v (centreR rnd b)) n - ((v.x - (b.lower.x + b.upper.x) / 2) * n.x + (v.y - (b.lower.y + b.upper.y) / 2) * n.y + (v.z - (b.lower.z + b.upper.z) / 2) * n.z)| ≤
      167 / 10 * (eps * B * (|n.x| + |n.y| + |n.z|)) := by
  have e0 := eps_nonneg hr
  have hB : 0 ≤ B := (abs_nonneg _).trans hl.1
  have z : 0 ≤ eps * B := mul_nonneg e0 hB
  have hN : 0 ≤ |n.x| + |n.y| + |n.z| := by positivity
  have sx := shift_near hr he hl.1 hu.1 hv.1
  have sy := shift_near hr he hl.2.1 hu.2.1 hv.2.1
  have sz := shift_near hr he hl.2.2 hu.2.2 hv.2.2
  have small : eps * B ≤ 1 / 1000 * B := mul_le_mul_of_nonneg_right he hB
  have bound : ∀ {l u v s : ℚ}, |l| ≤ B → |u| ≤ B → |v| ≤ B → |s - (v - (l + u) / 2)| ≤ 41 / 10 * (eps * B) → |s| ≤ 21 / 10 * B := by
    intro l u v s h1 h2 h3 h4
    rw [abs_le] at *
    constructor <;> linarith
  have bx := mul_le_mul_of_nonneg_right (bound hl.1 hu.1 hv.1 sx) (abs_nonneg n.x)
  have bY := mul_le_mul_of_nonneg_right (bound hl.2.1 hu.2.1 hv.2.1 sy) (abs_nonneg n.y)
  have bz := mul_le_mul_of_nonneg_right (bound hl.2.2 hu.2.2 hv.2.2 sz) (abs_nonneg n.z)
  have h1 := dot_near hr he fused (diffR rnd v (centreR rnd b)) n (S := 21 / 10 * B * (|n.x| + |n.y| + |n.z|)) (by
    simp only [diffR, centreR]
    linarith)
  have h2 := dot_diff (a := diffR rnd v (centreR rnd b)) (a' := ⟨v.x - (b.lower.x + b.upper.x) / 2, v.y - (b.lower.y + b.upper.y) / 2, v.z - (b.lower.z + b.upper.z) / 2⟩) (n := n)
    (e := 41 / 10 * (eps * B)) sx sy sz
  simp only at h2
  have e1 : 6 * (eps * (21 / 10 * B * (|n.x| + |n.y| + |n.z|))) = 126 / 10 * (eps * B * (|n.x| + |n.y| + |n.z|)) := by ring
  have e2 : 41 / 10 * (eps * B) * (|n.x| + |n.y| + |n.z|) = 41 / 10 * (eps * B * (|n.x| + |n.y| + |n.z|)) := by ring
  rw [e1] at h1
  rw [e2] at h2
  have := abs_sub_le (dotR rnd fused (diffR rnd v (centreR rnd b)) n)
    ((diffR rnd v (centreR rnd b)).x * n.x + (diffR rnd v (centreR rnd b)).y * n.y + (diffR rnd v (centreR rnd b)).z * n.z)
    ((v.x - (b.lower.x + b.upper.x) / 2) * n.x + (v.y - (b.lower.y + b.upper.y) / 2) * n.y + (v.z - (b.lower.z + b.upper.z) / 2) * n.z)
  linarith

/-- The projection of the box to an axis. -/
theorem radius_near (hr : IsRounding rnd eps big) (he : eps ≤ 1 / 1000) (fused : Bool) {b : Box ℚ} {n : V3 ℚ} {B tol : ℚ} (hl : Within B b.lower) (hu : Within B b.upper)
    (hb : b.lower.x ≤ b.upper.x ∧ b.lower.y ≤ b.upper.y ∧ b.lower.z ≤ b.upper.z) (ht : 0 ≤ tol) (htB : tol ≤ B) :
    |dotR rnd fused (extentR rnd b tol) ⟨|rnd n.x|, |rnd n.y|, |rnd n.z|⟩ -
      (((b.upper.x - b.lower.x) / 2 - tol) * |n.x| + ((b.upper.y - b.lower.y) / 2 - tol) * |n.y| + ((b.upper.z - b.lower.z) / 2 - tol) * |n.z|)| ≤ 109 / 10 * (eps * B * (|n.x| + |n.y| + |n.z|)) := by
  have e0 := eps_nonneg hr
  have hB : 0 ≤ B := (abs_nonneg _).trans hl.1
  have z : 0 ≤ eps * B := mul_nonneg e0 hB
  have small : eps * B ≤ 1 / 1000 * B := mul_le_mul_of_nonneg_right he hB
  have one : ∀ {l u m : ℚ}, |l| ≤ B → |u| ≤ B → l ≤ u →
      |rnd (rnd (rnd (u - l) / 2) - tol)| * |rnd m| ≤ 1102 / 1000 * B * |m| ∧ |rnd (rnd (rnd (u - l) / 2) - tol) * |rnd m| - (((u - l) / 2 - tol) * |m|)| ≤ 42 / 10 * (eps * B * |m|) := by
    intro l u m h1 h2 h3
    have hx := extent_near hr he h1 h2 h3 ht htB
    generalize rnd (rnd (rnd (u - l) / 2) - tol) = h' at *
    have hh : |(u - l) / 2 - tol| ≤ B := by rw [abs_le] at *; constructor <;> linarith
    generalize (u - l) / 2 - tol = h at *
    have m0 := abs_nonneg m
    have hm := hr.error m
    have hm1 := abs_sub_abs_le_abs_sub (rnd m) m
    have hm2 := abs_sub_abs_le_abs_sub m (rnd m)
    rw [abs_sub_comm m] at hm2
    have hem : eps * |m| ≤ 1 / 1000 * |m| := mul_le_mul_of_nonneg_right he m0
    have hb' : |h'| ≤ 11 / 10 * B := by rw [abs_le] at *; constructor <;> linarith
    have q0 := abs_nonneg (rnd m)
    constructor
    · have k1 := mul_le_mul_of_nonneg_right hb' q0
      have k2 := mul_le_mul_of_nonneg_left (by linarith : |rnd m| ≤ 1001 / 1000 * |m|) (by linarith : 0 ≤ 11 / 10 * B)
      have k3 : 0 ≤ B * |m| := mul_nonneg hB m0
      have k4 : 11 / 10 * B * (1001 / 1000 * |m|) = 11011 / 10000 * (B * |m|) := by ring
      have k5 : 1102 / 1000 * B * |m| = 1102 / 1000 * (B * |m|) := by ring
      linarith
    · have k1 : |h' - h| * |rnd m| ≤ 31 / 10 * (eps * B) * |rnd m| := mul_le_mul_of_nonneg_right hx q0
      have k2 : 31 / 10 * (eps * B) * |rnd m| ≤ 31 / 10 * (eps * B) * (1001 / 1000 * |m|) := mul_le_mul_of_nonneg_left (by linarith) (by linarith)
      have k3 : |h| * |(|rnd m| - |m|)| ≤ B * (eps * |m|) := mul_le_mul hh (by rw [abs_le]; constructor <;> linarith) (abs_nonneg _) hB
      have k4 : 31 / 10 * (eps * B) * (1001 / 1000 * |m|) = 31031 / 10000 * (eps * B * |m|) := by ring
      have k5 : B * (eps * |m|) = eps * B * |m| := by ring
      have k6 : 0 ≤ eps * B * |m| := mul_nonneg z m0
      have k7 : h' * |rnd m| - h * |m| = (h' - h) * |rnd m| + h * (|rnd m| - |m|) := by ring
      have k8 := abs_add_le ((h' - h) * |rnd m|) (h * (|rnd m| - |m|))
      rw [abs_mul, abs_abs, abs_mul] at k8
      rw [k7]
      linarith
  obtain ⟨x1, x2⟩ := one (m := n.x) hl.1 hu.1 hb.1
  obtain ⟨y1, y2⟩ := one (m := n.y) hl.2.1 hu.2.1 hb.2.1
  obtain ⟨z1, z2⟩ := one (m := n.z) hl.2.2 hu.2.2 hb.2.2
  have hd := dot_near hr he fused (extentR rnd b tol) ⟨|rnd n.x|, |rnd n.y|, |rnd n.z|⟩ (S := 1102 / 1000 * B * (|n.x| + |n.y| + |n.z|)) (by
    simp only [extentR, abs_abs]
    linarith)
  simp only [extentR] at hd ⊢
  have e1 : 6 * (eps * (1102 / 1000 * B * (|n.x| + |n.y| + |n.z|))) = 6612 / 1000 * (eps * B * (|n.x| + |n.y| + |n.z|)) := by ring
  rw [e1] at hd
  have hN : 0 ≤ eps * B * (|n.x| + |n.y| + |n.z|) := by positivity
  have e2 : eps * B * (|n.x| + |n.y| + |n.z|) = eps * B * |n.x| + eps * B * |n.y| + eps * B * |n.z| := by ring
  rw [abs_le] at hd x2 y2 z2 ⊢
  constructor <;> linarith

/-- No axis, computed exactly or not, separates a triangle and a box that share a point that is deep enough in the box. -/
theorem checkR_of_point (hr : IsRounding rnd eps big) (he : eps ≤ 1 / 1000) (fused : Bool) {b : Box ℚ} {v0 v1 v2 q : V3 ℚ} {B tol : ℚ} (hl : Within B b.lower) (hu : Within B b.upper)
    (hb : b.lower.x ≤ b.upper.x ∧ b.lower.y ≤ b.upper.y ∧ b.lower.z ≤ b.upper.z) (h0 : Within B v0) (h1 : Within B v1) (h2 : Within B v2) (ht : 0 ≤ tol) (htB : tol ≤ B) (hq : InTriangle v0 v1 v2 q)
    (hqb : InBoxTol b.lower b.upper (-(tol + 28 * eps * B)) q) (n : V3 ℚ) :
    checkAxisR rnd fused (diffR rnd v0 (centreR rnd b)) (diffR rnd v1 (centreR rnd b)) (diffR rnd v2 (centreR rnd b)) (extentR rnd b tol) n = true := by
  have e0 := eps_nonneg hr
  have hB : 0 ≤ B := (abs_nonneg _).trans hl.1
  have p0 := proj_near hr he fused (n := n) hl hu h0
  have p1 := proj_near hr he fused (n := n) hl hu h1
  have p2 := proj_near hr he fused (n := n) hl hu h2
  have hR := (abs_le.1 (radius_near hr he fused (n := n) hl hu hb ht htB)).1
  obtain ⟨u1, u2, u3⟩ := dot_unit hr fused n
  unfold checkAxisR
  simp only [u1, u2, u3]
  obtain ⟨u, v, w, hu0, hv0, hw0, hs, hx, hy, hz⟩ := hq
  obtain ⟨⟨x1, x2⟩, ⟨y1, y2⟩, z1, z2⟩ := hqb
  have hE : 0 ≤ eps * B * (|n.x| + |n.y| + |n.z|) := by positivity
  set N := eps * B * (|n.x| + |n.y| + |n.z|) with hN
  set hx' := (b.upper.x - b.lower.x) / 2 - tol with hhx
  set hy' := (b.upper.y - b.lower.y) / 2 - tol with hhy
  set hz' := (b.upper.z - b.lower.z) / 2 - tol with hhz
  set cx := (b.lower.x + b.upper.x) / 2 with hcx
  set cy := (b.lower.y + b.upper.y) / 2 with hcy
  set cz := (b.lower.z + b.upper.z) / 2 with hcz
  have ax : |q.x - cx| ≤ hx' - 28 * eps * B := by rw [abs_le, hhx, hcx]; constructor <;> linarith
  have ay : |q.y - cy| ≤ hy' - 28 * eps * B := by rw [abs_le, hhy, hcy]; constructor <;> linarith
  have az : |q.z - cz| ≤ hz' - 28 * eps * B := by rw [abs_le, hhz, hcz]; constructor <;> linarith
  have hP : |(q.x - cx) * n.x + (q.y - cy) * n.y + (q.z - cz) * n.z| ≤ hx' * |n.x| + hy' * |n.y| + hz' * |n.z| - 28 * N := by
    have k1 := abs_add_le ((q.x - cx) * n.x + (q.y - cy) * n.y) ((q.z - cz) * n.z)
    have k2 := abs_add_le ((q.x - cx) * n.x) ((q.y - cy) * n.y)
    rw [abs_mul, abs_mul] at k2
    rw [abs_mul (q.z - cz)] at k1
    have m1 := mul_le_mul_of_nonneg_right ax (abs_nonneg n.x)
    have m2 := mul_le_mul_of_nonneg_right ay (abs_nonneg n.y)
    have m3 := mul_le_mul_of_nonneg_right az (abs_nonneg n.z)
    have : 28 * N = 28 * eps * B * |n.x| + 28 * eps * B * |n.y| + 28 * eps * B * |n.z| := by rw [hN]; ring
    linarith
  have hPe : (q.x - cx) * n.x + (q.y - cy) * n.y + (q.z - cz) * n.z = u * ((v0.x - cx) * n.x + (v0.y - cy) * n.y + (v0.z - cz) * n.z) + v * ((v1.x - cx) * n.x + (v1.y - cy) * n.y + (v1.z - cz) * n.z) +
      w * ((v2.x - cx) * n.x + (v2.y - cy) * n.y + (v2.z - cz) * n.z) := by
    rw [hx, hy, hz]
    linear_combination (cx * n.x + cy * n.y + cz * n.z) * hs
  generalize (q.x - cx) * n.x + (q.y - cy) * n.y + (q.z - cz) * n.z = P at *
  generalize (v0.x - cx) * n.x + (v0.y - cy) * n.y + (v0.z - cz) * n.z = s0 at *
  generalize (v1.x - cx) * n.x + (v1.y - cy) * n.y + (v1.z - cz) * n.z = s1 at *
  generalize (v2.x - cx) * n.x + (v2.y - cy) * n.y + (v2.z - cz) * n.z = s2 at *
  generalize dotR rnd fused (diffR rnd v0 (centreR rnd b)) n = t0 at *
  generalize dotR rnd fused (diffR rnd v1 (centreR rnd b)) n = t1 at *
  generalize dotR rnd fused (diffR rnd v2 (centreR rnd b)) n = t2 at *
  generalize dotR rnd fused (extentR rnd b tol) ⟨|rnd n.x|, |rnd n.y|, |rnd n.z|⟩ = r at *
  rw [abs_le] at p0 p1 p2 hP
  rw [if_neg]
  rw [gt_iff_lt, not_lt]
  refine max_le ?_ ?_
  · by_contra hc
    have hc' : max (max t0 t1) t2 < -r := by linarith [not_le.1 hc]
    have c2 := lt_of_le_of_lt (le_max_right (max t0 t1) t2) hc'
    have c1 := lt_of_le_of_lt ((le_max_right t0 t1).trans (le_max_left _ t2)) hc'
    have c0 := lt_of_le_of_lt ((le_max_left t0 t1).trans (le_max_left _ t2)) hc'
    have g0 := mul_le_mul_of_nonneg_left (by linarith : s0 ≤ -r + 167 / 10 * N) hu0
    have g1 := mul_le_mul_of_nonneg_left (by linarith : s1 ≤ -r + 167 / 10 * N) hv0
    have g2 := mul_le_mul_of_nonneg_left (by linarith : s2 ≤ -r + 167 / 10 * N) hw0
    have g3 : u * (-r + 167 / 10 * N) + v * (-r + 167 / 10 * N) + w * (-r + 167 / 10 * N) = -r + 167 / 10 * N := by rw [← add_mul, ← add_mul, hs, one_mul]
    have key : P ≤ -r + 167 / 10 * N := by linarith
    have hN0 : N ≤ 0 := by linarith
    have hN00 : N = 0 := le_antisymm hN0 hE
    rw [hN00] at *
    -- with no error at all some corner is strictly beyond
    have d0 : s0 < -r := by linarith
    have d1 : s1 < -r := by linarith
    have d2 : s2 < -r := by linarith
    have : P < -r := by
      rw [hPe]
      rcases eq_or_lt_of_le hu0 with rfl | hup
      · rcases eq_or_lt_of_le hv0 with rfl | hvp
        · have : w = 1 := by linarith
          subst this; linarith
        · have := mul_lt_mul_of_pos_left d1 hvp
          have := mul_le_mul_of_nonneg_left d2.le hw0
          have e : v * (-r) + w * (-r) = -r := by rw [← add_mul]; rw [show v + w = 1 by linarith]; ring
          linarith
      · have := mul_lt_mul_of_pos_left d0 hup
        have := mul_le_mul_of_nonneg_left d1.le hv0
        have := mul_le_mul_of_nonneg_left d2.le hw0
        have e : u * (-r) + v * (-r) + w * (-r) = -r := by rw [← add_mul, ← add_mul, hs, one_mul]
        linarith
    linarith
  · by_contra hc
    have hc' : r < min (min t0 t1) t2 := not_le.1 hc
    have c2 := lt_of_lt_of_le hc' (min_le_right (min t0 t1) t2)
    have c1 := lt_of_lt_of_le hc' ((min_le_left (min t0 t1) t2).trans (min_le_right _ _))
    have c0 := lt_of_lt_of_le hc' ((min_le_left (min t0 t1) t2).trans (min_le_left _ _))
    have g0 := mul_le_mul_of_nonneg_left (by linarith : r - 167 / 10 * N ≤ s0) hu0
    have g1 := mul_le_mul_of_nonneg_left (by linarith : r - 167 / 10 * N ≤ s1) hv0
    have g2 := mul_le_mul_of_nonneg_left (by linarith : r - 167 / 10 * N ≤ s2) hw0
    have g3 : u * (r - 167 / 10 * N) + v * (r - 167 / 10 * N) + w * (r - 167 / 10 * N) = r - 167 / 10 * N := by rw [← add_mul, ← add_mul, hs, one_mul]
    have hN0 : N ≤ 0 := by linarith
    have hN00 : N = 0 := le_antisymm hN0 hE
    rw [hN00] at *
    have d0 : r < s0 := by linarith
    have d1 : r < s1 := by linarith
    have d2 : r < s2 := by linarith
    have : r < P := by
      rw [hPe]
      rcases eq_or_lt_of_le hu0 with rfl | hup
      · rcases eq_or_lt_of_le hv0 with rfl | hvp
        · have : w = 1 := by linarith
          subst this; linarith
        · have := mul_lt_mul_of_pos_left d1 hvp
          have := mul_le_mul_of_nonneg_left d2.le hw0
          have e : v * r + w * r = r := by rw [← add_mul]; rw [show v + w = 1 by linarith]; ring
          linarith
      · have := mul_lt_mul_of_pos_left d0 hup
        have := mul_le_mul_of_nonneg_left d1.le hv0
        have := mul_le_mul_of_nonneg_left d2.le hw0
        have e : u * r + v * r + w * r = r := by rw [← add_mul, ← add_mul, hs, one_mul]
        linarith
    linarith

/-- **C116** (never misses).  For every machine arithmetic that keeps the order and has relative error at most 1/1000: if the triangle has a point in the box shrunk by the tolerance and by `28 eps B`, where
`B` bounds the coordinates, the test reports an intersection.  The full property is without the margin of `28 eps B`; it is false, see `C116_false_of_code`. -/
theorem C116_never_misses_partial (hr : IsRounding rnd eps big) (he : eps ≤ 1 / 1000) (fused : Bool) {b : Box ℚ} {v0 v1 v2 : V3 ℚ} {B tol : ℚ} (hl : Within B b.lower) (hu : Within B b.upper)
    (hb : b.lower.x ≤ b.upper.x ∧ b.lower.y ≤ b.upper.y ∧ b.lower.z ≤ b.upper.z) (h0 : Within B v0) (h1 : Within B v1) (h2 : Within B v2) (ht : 0 ≤ tol) (htB : tol ≤ B)
    (h : ∃ q, InTriangle v0 v1 v2 q ∧ InBoxTol b.lower b.upper (-(tol + 28 * eps * B)) q) : intersectTriR rnd fused b v0 v1 v2 tol = true := by
  obtain ⟨q, hq, hqb⟩ := h
  unfold intersectTriR
  rw [List.all_eq_true]
  exact fun n _ => checkR_of_point hr he fused hl hu hb h0 h1 h2 ht htB hq hqb n

/-- An axis along which box and triangle are separated by more than the rounding errors separates them also for the code, if it is computed with an error of at most `d`. -/
theorem checkR_false (hr : IsRounding rnd eps big) (he : eps ≤ 1 / 1000) (fused : Bool) {b : Box ℚ} {v0 v1 v2 : V3 ℚ} {B tol : ℚ} (hl : Within B b.lower) (hu : Within B b.upper)
    (hb : b.lower.x + 2 * tol ≤ b.upper.x ∧ b.lower.y + 2 * tol ≤ b.upper.y ∧ b.lower.z + 2 * tol ≤ b.upper.z) (h0 : Within B v0) (h1 : Within B v1) (h2 : Within B v2) (ht : 0 ≤ tol)
    {n n' : V3 ℚ} {d m : ℚ} (hx : |n'.x - n.x| ≤ d) (hy : |n'.y - n.y| ≤ d) (hz : |n'.z - n.z| ≤ d) (hm : 9 * (B * d) + 28 * (eps * B * (|n.x| + |n.y| + |n.z| + 3 * d)) ≤ m)
    (h : SeparatedBy b.lower b.upper tol v0 v1 v2 n m ∨ SeparatedBy b.lower b.upper tol v0 v1 v2 ⟨-n.x, -n.y, -n.z⟩ m) :
    checkAxisR rnd fused (diffR rnd v0 (centreR rnd b)) (diffR rnd v1 (centreR rnd b)) (diffR rnd v2 (centreR rnd b)) (extentR rnd b tol) n' = false := by
  have e0 := eps_nonneg hr
  have hB : 0 ≤ B := (abs_nonneg _).trans hl.1
  have htB : tol ≤ B := by
    have := abs_le.1 hl.1
    have := abs_le.1 hu.1
    linarith [hb.1]
  have p0 := proj_near hr he fused (n := n') hl hu h0
  have p1 := proj_near hr he fused (n := n') hl hu h1
  have p2 := proj_near hr he fused (n := n') hl hu h2
  have hR := radius_near hr he fused (n := n') hl hu ⟨by linarith [hb.1], by linarith [hb.2.1], by linarith [hb.2.2]⟩ ht htB
  obtain ⟨u1, u2, u3⟩ := dot_unit hr fused n'
  unfold checkAxisR
  simp only [u1, u2, u3]
  -- the errors of the axis
  have ax := abs_sub_abs_le_abs_sub n'.x n.x
  have ay := abs_sub_abs_le_abs_sub n'.y n.y
  have az := abs_sub_abs_le_abs_sub n'.z n.z
  have hN : |n'.x| + |n'.y| + |n'.z| ≤ |n.x| + |n.y| + |n.z| + 3 * d := by linarith
  have hN' : eps * B * (|n'.x| + |n'.y| + |n'.z|) ≤ eps * B * (|n.x| + |n.y| + |n.z| + 3 * d) := mul_le_mul_of_nonneg_left hN (mul_nonneg e0 hB)
  have hN0 : 0 ≤ eps * B * (|n'.x| + |n'.y| + |n'.z|) := by positivity
  generalize eps * B * (|n'.x| + |n'.y| + |n'.z|) = N' at *
  generalize eps * B * (|n.x| + |n.y| + |n.z| + 3 * d) = N at *
  have part : ∀ {l u v k k' : ℚ}, |l| ≤ B → |u| ≤ B → |v| ≤ B → |k' - k| ≤ d → |(v - (l + u) / 2) * k' - (v - (l + u) / 2) * k| ≤ 2 * (B * d) := by
    intro l u v k k' a1 a2 a3 a4
    rw [← mul_sub, abs_mul]
    have : |v - (l + u) / 2| ≤ 2 * B := by rw [abs_le] at *; constructor <;> linarith
    have := mul_le_mul this a4 (abs_nonneg _) (by linarith)
    linarith
  have corner : ∀ v : V3 ℚ, Within B v → |((v.x - (b.lower.x + b.upper.x) / 2) * n'.x + (v.y - (b.lower.y + b.upper.y) / 2) * n'.y + (v.z - (b.lower.z + b.upper.z) / 2) * n'.z) -
      ((v.x - (b.lower.x + b.upper.x) / 2) * n.x + (v.y - (b.lower.y + b.upper.y) / 2) * n.y + (v.z - (b.lower.z + b.upper.z) / 2) * n.z)| ≤ 6 * (B * d) := by
    intro v hv
    have a1 := abs_le.1 (part hl.1 hu.1 hv.1 hx)
    have a2 := abs_le.1 (part hl.2.1 hu.2.1 hv.2.1 hy)
    have a3 := abs_le.1 (part hl.2.2 hu.2.2 hv.2.2 hz)
    rw [abs_le]
    constructor <;> linarith
  have size : ∀ {l u k k' : ℚ}, |l| ≤ B → |u| ≤ B → l + 2 * tol ≤ u → |k'| - |k| ≤ |k' - k| → |k' - k| ≤ d → ((u - l) / 2 - tol) * |k'| ≤ ((u - l) / 2 - tol) * |k| + B * d := by
    intro l u k k' a1 a2 a3 a4 a5
    have g0 : 0 ≤ (u - l) / 2 - tol := by linarith
    have g1 : (u - l) / 2 - tol ≤ B := by rw [abs_le] at *; linarith
    have g2 := mul_le_mul_of_nonneg_left (by linarith : |k'| ≤ |k| + d) g0
    have g3 := mul_le_mul_of_nonneg_right g1 ((abs_nonneg _).trans a5)
    rw [mul_add] at g2
    linarith
  have s1 := size hl.1 hu.1 hb.1 ax hx
  have s2 := size hl.2.1 hu.2.1 hb.2.1 ay hy
  have s3 := size hl.2.2 hu.2.2 hb.2.2 az hz
  have c0 := corner v0 h0
  have c1 := corner v1 h1
  have c2 := corner v2 h2
  -- the corner of the box that is farthest along the direction
  have far : ∀ k : V3 ℚ, ∃ q, InBoxTol b.lower b.upper (-tol) q ∧
      k.x * q.x + k.y * q.y + k.z * q.z = k.x * ((b.lower.x + b.upper.x) / 2) + k.y * ((b.lower.y + b.upper.y) / 2) + k.z * ((b.lower.z + b.upper.z) / 2) +
        (((b.upper.x - b.lower.x) / 2 - tol) * |k.x| + ((b.upper.y - b.lower.y) / 2 - tol) * |k.y| + ((b.upper.z - b.lower.z) / 2 - tol) * |k.z|) := by
    intro k
    have one : ∀ {l u k : ℚ}, l + 2 * tol ≤ u → ∃ q, (l - -tol ≤ q ∧ q ≤ u + -tol) ∧ k * q = k * ((l + u) / 2) + ((u - l) / 2 - tol) * |k| := by
      intro l u k hh
      rcases le_total 0 k with hk | hk
      · exact ⟨u - tol, ⟨by linarith, by linarith⟩, by rw [abs_of_nonneg hk]; ring⟩
      · exact ⟨l + tol, ⟨by linarith, by linarith⟩, by rw [abs_of_nonpos hk]; ring⟩
    obtain ⟨qx, a1, a2⟩ := one (k := k.x) hb.1
    obtain ⟨qy, b1, b2⟩ := one (k := k.y) hb.2.1
    obtain ⟨qz, d1, d2⟩ := one (k := k.z) hb.2.2
    exact ⟨⟨qx, qy, qz⟩, ⟨a1, b1, d1⟩, by simp only; linarith⟩
  rw [if_pos]
  rw [gt_iff_lt]
  generalize dotR rnd fused (diffR rnd v0 (centreR rnd b)) n' = t0 at *
  generalize dotR rnd fused (diffR rnd v1 (centreR rnd b)) n' = t1 at *
  generalize dotR rnd fused (diffR rnd v2 (centreR rnd b)) n' = t2 at *
  generalize dotR rnd fused (extentR rnd b tol) ⟨|rnd n'.x|, |rnd n'.y|, |rnd n'.z|⟩ = r at *
  rw [abs_le] at p0 p1 p2 hR c0 c1 c2
  rcases h with h | h
  · obtain ⟨q, hq, e⟩ := far n
    have k0 := h q hq v0 (by simp)
    have k1 := h q hq v1 (by simp)
    have k2 := h q hq v2 (by simp)
    refine lt_of_lt_of_le ?_ (le_max_right _ _)
    exact lt_min (lt_min (by linarith) (by linarith)) (by linarith)
  · obtain ⟨q, hq, e⟩ := far ⟨-n.x, -n.y, -n.z⟩
    simp only [abs_neg] at e
    have k0 := h q hq v0 (by simp)
    have k1 := h q hq v1 (by simp)
    have k2 := h q hq v2 (by simp)
    simp only at k0 k1 k2
    refine lt_of_lt_of_le ?_ (le_max_left _ _)
    rw [lt_neg]
    exact max_lt (max_lt (by linarith) (by linarith)) (by linarith)

/-- Rounded differences of two products of rounded factors. -/
theorem minor_near (hr : IsRounding rnd eps big) (he : eps ≤ 1 / 1000) (fused : Bool) {a b c d p q P : ℚ} (hp : |p| ≤ P) (hq : |q| ≤ P) (h1 : |a * b - p| ≤ 201 / 100 * (eps * P))
    (h2 : |c * d - q| ≤ 201 / 100 * (eps * P)) : |minorR rnd fused a b c d - (p - q)| ≤ 82 / 10 * (eps * P) := by
  have z : 0 ≤ eps * P := mul_nonneg (eps_nonneg hr) ((abs_nonneg _).trans hp)
  have g1 := rnd_near12 hr he hp (by norm_num) h1
  have g2 := rnd_near12 hr he hq (by norm_num) h2
  have hpq : |p - q| ≤ 2 * P := by rw [abs_le] at *; constructor <;> linarith
  unfold minorR
  split
  · have := rnd_near12 hr he (B := 2 * P) (a := 303 / 100) (v := a * b - rnd (c * d)) (t := p - q) hpq (by norm_num) (by rw [abs_le] at *; constructor <;> linarith)
    linarith
  · have := rnd_near12 hr he (B := 2 * P) (a := 303 / 100) (v := rnd (a * b) - rnd (c * d)) (t := p - q) hpq (by norm_num) (by rw [abs_le] at *; constructor <;> linarith)
    linarith

/-- One coordinate of an edge. -/
theorem edge_near (hr : IsRounding rnd eps big) {a b B : ℚ} (ha : |a| ≤ B) (hb : |b| ≤ B) : |a - b| ≤ 2 * B ∧ |rnd (a - b) - (a - b)| ≤ 2 * (eps * B) := by
  have h : |a - b| ≤ 2 * B := by rw [abs_le] at *; constructor <;> linarith
  have := mul_le_mul_of_nonneg_left h (eps_nonneg hr)
  exact ⟨h, by linarith [hr.error (a - b)]⟩

/-- **C116** (no false alarm).  For every machine arithmetic that keeps the order and has relative error at most 1/1000, and coordinates up to `B`: the test reports no intersection if the box shrunk by the
tolerance and the triangle are separated, along one of the thirteen directions of the separating axis theorem, by more than a few rounding errors.  The directions are not normalised; they have components
up to one (faces of the box), `2 B` (edges) and `8 B^2` (plane of the triangle).  In exact arithmetic disjoint sets are separated along one of these directions (C30). -/
theorem C116_separated_partial (hr : IsRounding rnd eps big) (he : eps ≤ 1 / 1000) (fused : Bool) {b : Box ℚ} {v0 v1 v2 : V3 ℚ} {B tol : ℚ} (hl : Within B b.lower) (hu : Within B b.upper)
    (hb : b.lower.x + 2 * tol ≤ b.upper.x ∧ b.lower.y + 2 * tol ≤ b.upper.y ∧ b.lower.z + 2 * tol ≤ b.upper.z) (h0 : Within B v0) (h1 : Within B v1) (h2 : Within B v2) (ht : 0 ≤ tol)
    {n : V3 ℚ} (h : ∃ m, (SeparatedBy b.lower b.upper tol v0 v1 v2 n m ∨ SeparatedBy b.lower b.upper tol v0 v1 v2 ⟨-n.x, -n.y, -n.z⟩ m) ∧
      ((n ∈ [⟨1, 0, 0⟩, ⟨0, 1, 0⟩, ⟨0, 0, 1⟩] ∧ 28 * (eps * B) ≤ m) ∨
        (n ∈ ([⟨1, 0, 0⟩, ⟨0, 1, 0⟩, ⟨0, 0, 1⟩] : List (V3 ℚ)).flatMap (fun u => [v1 - v0, v2 - v1, v0 - v2].map (vectorProduct u)) ∧ 400 * (eps * B ^ 2) ≤ m) ∨
        (n = vectorProduct (v1 - v0) (v2 - v1) ∧ 1000 * (eps * B ^ 3) ≤ m))) : intersectTriR rnd fused b v0 v1 v2 tol = false := by
  obtain ⟨m, hs, hn⟩ := h
  have e0 := eps_nonneg hr
  have hB : 0 ≤ B := (abs_nonneg _).trans hl.1
  have z1 : 0 ≤ eps * B := mul_nonneg e0 hB
  have z2 : 0 ≤ eps * B ^ 2 := mul_nonneg e0 (pow_nonneg hB 2)
  have z3 : 0 ≤ eps * B ^ 3 := mul_nonneg e0 (pow_nonneg hB 3)
  have zz2 : eps * (eps * B ^ 2) ≤ 1 / 1000 * (eps * B ^ 2) := mul_le_mul_of_nonneg_right he z2
  have zz3 : eps * (eps * B ^ 3) ≤ 1 / 1000 * (eps * B ^ 3) := mul_le_mul_of_nonneg_right he z3
  suffices hk : ∃ n' ∈ axesR rnd fused v0 v1 v2, checkAxisR rnd fused (diffR rnd v0 (centreR rnd b)) (diffR rnd v1 (centreR rnd b)) (diffR rnd v2 (centreR rnd b)) (extentR rnd b tol) n' = false by
    obtain ⟨n', hn', hc⟩ := hk
    unfold intersectTriR
    rw [List.all_eq_false]
    exact ⟨n', hn', by rw [hc]; simp⟩
  have hb2 : eps * B ^ 2 = eps * B * B := by ring
  rcases hn with ⟨hn, hm⟩ | ⟨hn, hm⟩ | ⟨hn, hm⟩
  · refine ⟨n, ?_, checkR_false hr he fused hl hu hb h0 h1 h2 ht (d := 0) (by simp) (by simp) (by simp) ?_ hs⟩
    · simp only [List.mem_cons, List.not_mem_nil, or_false] at hn
      rcases hn with rfl | rfl | rfl <;> simp [axesR]
    · simp only [List.mem_cons, List.not_mem_nil, or_false] at hn
      rcases hn with rfl | rfl | rfl <;> simp <;> linarith
  · have edge : ∀ {p q : V3 ℚ}, Within B p → Within B q → ∀ u ∈ ([⟨1, 0, 0⟩, ⟨0, 1, 0⟩, ⟨0, 0, 1⟩] : List (V3 ℚ)), n = vectorProduct u (p - q) →
        checkAxisR rnd fused (diffR rnd v0 (centreR rnd b)) (diffR rnd v1 (centreR rnd b)) (diffR rnd v2 (centreR rnd b)) (extentR rnd b tol) (crossR rnd fused u (diffR rnd p q)) = false := by
      intro p q hp hq u hu' hn'
      obtain ⟨x1, x2⟩ := edge_near hr hp.1 hq.1
      obtain ⟨y1, y2⟩ := edge_near hr hp.2.1 hq.2.1
      obtain ⟨w1, w2⟩ := edge_near hr hp.2.2 hq.2.2
      have one : ∀ {a f f' : ℚ}, (a = 0 ∨ a = 1) → |f| ≤ 2 * B → |f' - f| ≤ 2 * (eps * B) → |a * f| ≤ 2 * B ∧ |a * f' - a * f| ≤ 201 / 100 * (eps * (2 * B)) := by
        intro a f f' ha g1 g2
        rcases ha with rfl | rfl
        · simp only [zero_mul, sub_zero, abs_zero]
          constructor <;> linarith
        · rw [one_mul, one_mul]
          exact ⟨g1, by linarith⟩
      have hu3 : (u.x = 0 ∨ u.x = 1) ∧ (u.y = 0 ∨ u.y = 1) ∧ (u.z = 0 ∨ u.z = 1) := by
        simp only [List.mem_cons, List.not_mem_nil, or_false] at hu'
        rcases hu' with rfl | rfl | rfl <;> simp
      obtain ⟨ux, uy, uz⟩ := hu3
      have dist : ∀ {a b f f' g g' : ℚ}, (a = 0 ∨ a = 1) → (b = 0 ∨ b = 1) → |f| ≤ 2 * B → |f' - f| ≤ 2 * (eps * B) → |g| ≤ 2 * B → |g' - g| ≤ 2 * (eps * B) →
          |minorR rnd fused a f' b g' - (a * f - b * g)| ≤ 164 / 10 * (eps * B) ∧ |a * f - b * g| ≤ 4 * B := by
        intro a b f f' g g' ha hb' g1 g2 g3 g4
        obtain ⟨i1, i2⟩ := one ha g1 g2
        obtain ⟨j1, j2⟩ := one hb' g3 g4
        refine ⟨?_, ?_⟩
        · have := minor_near hr he fused i1 j1 i2 j2
          linarith
        · rw [abs_le] at *
          constructor <;> linarith
      obtain ⟨r1, t1⟩ := dist uy uz w1 w2 y1 y2
      obtain ⟨r2, t2⟩ := dist uz ux x1 x2 w1 w2
      obtain ⟨r3, t3⟩ := dist ux uy y1 y2 x1 x2
      have hnx : n.x = u.y * (p.z - q.z) - u.z * (p.y - q.y) := by rw [hn']; rfl
      have hny : n.y = u.z * (p.x - q.x) - u.x * (p.z - q.z) := by rw [hn']; rfl
      have hnz : n.z = u.x * (p.y - q.y) - u.y * (p.x - q.x) := by rw [hn']; rfl
      refine checkR_false hr he fused hl hu hb h0 h1 h2 ht (d := 164 / 10 * (eps * B)) (by rw [hnx]; exact r1) (by rw [hny]; exact r2) (by rw [hnz]; exact r3) ?_ hs
      have hN : |n.x| + |n.y| + |n.z| ≤ 8 * B := by
        rw [hnx, hny, hnz]
        simp only [List.mem_cons, List.not_mem_nil, or_false] at hu'
        rcases hu' with rfl | rfl | rfl <;> simp only [zero_mul, one_mul, sub_zero, zero_sub, abs_zero, abs_neg] <;> linarith
      have k1 := mul_le_mul_of_nonneg_left hN z1
      have k2 : 9 * (B * (164 / 10 * (eps * B))) = 1476 / 10 * (eps * B ^ 2) := by ring
      have k3 : 28 * (eps * B * (|n.x| + |n.y| + |n.z| + 3 * (164 / 10 * (eps * B)))) = 28 * (eps * B * (|n.x| + |n.y| + |n.z|)) + 13776 / 10 * (eps * (eps * B ^ 2)) := by ring
      have k4 : eps * B * (8 * B) = 8 * (eps * B ^ 2) := by ring
      rw [k2, k3]
      linarith
    simp only [List.mem_flatMap, List.mem_map] at hn
    obtain ⟨u, hu', f, hf, hnf⟩ := hn
    simp only [List.mem_cons, List.not_mem_nil, or_false] at hf
    rcases hf with rfl | rfl | rfl
    · refine ⟨_, ?_, edge h1 h0 u hu' hnf.symm⟩
      simp only [List.mem_cons, List.not_mem_nil, or_false] at hu'
      rcases hu' with rfl | rfl | rfl <;> simp [axesR]
    · refine ⟨_, ?_, edge h2 h1 u hu' hnf.symm⟩
      simp only [List.mem_cons, List.not_mem_nil, or_false] at hu'
      rcases hu' with rfl | rfl | rfl <;> simp [axesR]
    · refine ⟨_, ?_, edge h0 h2 u hu' hnf.symm⟩
      simp only [List.mem_cons, List.not_mem_nil, or_false] at hu'
      rcases hu' with rfl | rfl | rfl <;> simp [axesR]
  · obtain ⟨x1, x2⟩ := edge_near hr h1.1 h0.1
    obtain ⟨y1, y2⟩ := edge_near hr h1.2.1 h0.2.1
    obtain ⟨w1, w2⟩ := edge_near hr h1.2.2 h0.2.2
    obtain ⟨x3, x4⟩ := edge_near hr h2.1 h1.1
    obtain ⟨y3, y4⟩ := edge_near hr h2.2.1 h1.2.1
    obtain ⟨w3, w4⟩ := edge_near hr h2.2.2 h1.2.2
    have one : ∀ {f f' g g' : ℚ}, |f| ≤ 2 * B → |f' - f| ≤ 2 * (eps * B) → |g| ≤ 2 * B → |g' - g| ≤ 2 * (eps * B) → |f * g| ≤ 4 * B ^ 2 ∧ |f' * g' - f * g| ≤ 201 / 100 * (eps * (4 * B ^ 2)) := by
      intro f f' g g' a1 a2 a3 a4
      constructor
      · rw [abs_mul]
        have := mul_le_mul a1 a3 (abs_nonneg _) (by linarith)
        have e : 2 * B * (2 * B) = 4 * B ^ 2 := by ring
        linarith
      · have e : f' * g' - f * g = (f' - f) * g + f * (g' - g) + (f' - f) * (g' - g) := by ring
        have i1 := abs_add_le ((f' - f) * g + f * (g' - g)) ((f' - f) * (g' - g))
        have i2 := abs_add_le ((f' - f) * g) (f * (g' - g))
        rw [abs_mul, abs_mul] at i2
        rw [abs_mul (f' - f) (g' - g)] at i1
        have j1 := mul_le_mul a2 a3 (abs_nonneg _) (by linarith)
        have j2 := mul_le_mul a1 a4 (abs_nonneg _) (by linarith)
        have j3 := mul_le_mul a2 a4 (abs_nonneg _) (by linarith)
        have l1 : 2 * (eps * B) * (2 * B) = 4 * (eps * B ^ 2) := by ring
        have l2 : 2 * B * (2 * (eps * B)) = 4 * (eps * B ^ 2) := by ring
        have l3 : 2 * (eps * B) * (2 * (eps * B)) = 4 * (eps * (eps * B ^ 2)) := by ring
        have l4 : 201 / 100 * (eps * (4 * B ^ 2)) = 804 / 100 * (eps * B ^ 2) := by ring
        rw [e, l4]
        linarith
    have dist : ∀ {f f' g g' k k' l l' : ℚ}, |f| ≤ 2 * B → |f' - f| ≤ 2 * (eps * B) → |g| ≤ 2 * B → |g' - g| ≤ 2 * (eps * B) → |k| ≤ 2 * B → |k' - k| ≤ 2 * (eps * B) → |l| ≤ 2 * B →
        |l' - l| ≤ 2 * (eps * B) → |minorR rnd fused f' g' k' l' - (f * g - k * l)| ≤ 328 / 10 * (eps * B ^ 2) ∧ |f * g - k * l| ≤ 8 * B ^ 2 := by
      intro f f' g g' k k' l l' a1 a2 a3 a4 a5 a6 a7 a8
      obtain ⟨i1, i2⟩ := one a1 a2 a3 a4
      obtain ⟨j1, j2⟩ := one a5 a6 a7 a8
      refine ⟨?_, ?_⟩
      · have := minor_near hr he fused i1 j1 i2 j2
        have e : 82 / 10 * (eps * (4 * B ^ 2)) = 328 / 10 * (eps * B ^ 2) := by ring
        linarith
      · rw [abs_le] at *
        constructor <;> linarith
    obtain ⟨r1, t1⟩ := dist y1 y2 w3 w4 w1 w2 y3 y4
    obtain ⟨r2, t2⟩ := dist w1 w2 x3 x4 x1 x2 w3 w4
    obtain ⟨r3, t3⟩ := dist x1 x2 y3 y4 y1 y2 x3 x4
    have hnx : n.x = (v1.y - v0.y) * (v2.z - v1.z) - (v1.z - v0.z) * (v2.y - v1.y) := by rw [hn]; rfl
    have hny : n.y = (v1.z - v0.z) * (v2.x - v1.x) - (v1.x - v0.x) * (v2.z - v1.z) := by rw [hn]; rfl
    have hnz : n.z = (v1.x - v0.x) * (v2.y - v1.y) - (v1.y - v0.y) * (v2.x - v1.x) := by rw [hn]; rfl
    refine ⟨crossR rnd fused (diffR rnd v1 v0) (diffR rnd v2 v1), by simp [axesR], checkR_false hr he fused hl hu hb h0 h1 h2 ht (d := 328 / 10 * (eps * B ^ 2)) (by rw [hnx]; exact r1)
      (by rw [hny]; exact r2) (by rw [hnz]; exact r3) ?_ hs⟩
    have hN : |n.x| + |n.y| + |n.z| ≤ 24 * B ^ 2 := by rw [hnx, hny, hnz]; linarith
    have k1 := mul_le_mul_of_nonneg_left hN z1
    have k2 : 9 * (B * (328 / 10 * (eps * B ^ 2))) = 2952 / 10 * (eps * B ^ 3) := by ring
    have k3 : 28 * (eps * B * (|n.x| + |n.y| + |n.z| + 3 * (328 / 10 * (eps * B ^ 2)))) = 28 * (eps * B * (|n.x| + |n.y| + |n.z|)) + 27552 / 10 * (eps * (eps * B ^ 3)) := by ring
    have k4 : eps * B * (24 * B ^ 2) = 24 * (eps * B ^ 3) := by ring
    rw [k2, k3]
    linarith

end

/-- **C116** (double precision).  The margin is `3.2e-15 B`. -/
theorem C116_binary64_partial (fused : Bool) {b : Box ℚ} {v0 v1 v2 : V3 ℚ} {B tol : ℚ} (hl : Within B b.lower) (hu : Within B b.upper)
    (hb : b.lower.x ≤ b.upper.x ∧ b.lower.y ≤ b.upper.y ∧ b.lower.z ≤ b.upper.z) (h0 : Within B v0) (h1 : Within B v1) (h2 : Within B v2) (ht : 0 ≤ tol) (htB : tol ≤ B)
    (h : ∃ q, InTriangle v0 v1 v2 q ∧ InBoxTol b.lower b.upper (-(tol + 32 / 10 ^ 16 * B)) q) : intersectTriR binary64 fused b v0 v1 v2 tol = true := by
  obtain ⟨q, hq, ⟨x1, x2⟩, ⟨y1, y2⟩, z1, z2⟩ := h
  have hB : 0 ≤ B := (abs_nonneg _).trans hl.1
  have hm : 28 * (1 / 2 ^ 53) * B ≤ 32 / 10 ^ 16 * B := mul_le_mul_of_nonneg_right (by norm_num) hB
  exact C116_never_misses_partial binary64_isRounding (by norm_num) fused hl hu hb h0 h1 h2 ht htB ⟨q, hq, ⟨⟨by linarith, by linarith⟩, ⟨by linarith, by linarith⟩, by linarith, by linarith⟩⟩

/-- **C116** is false of the code without the margin: in double precision, with and without fused multiply-add, the box from -1 to -0.9 (in x) and a triangle that touches its face x = -1 in its middle.  They
share a point, in exact arithmetic the test says so, but the code does not: the rounded centre is farther from the face than half of the rounded size. -/
theorem C116_false_of_code : ∃ (b : Box ℚ) (v0 v1 v2 : V3 ℚ),
    (∀ x ∈ [b.lower.x, b.lower.y, b.lower.z, b.upper.x, b.upper.y, b.upper.z, v0.x, v0.y, v0.z, v1.x, v1.y, v1.z, v2.x, v2.y, v2.z], binary64 x = x) ∧ ProperBox b ∧
    (∃ q, InTriangle v0 v1 v2 q ∧ InBoxTol b.lower b.upper 0 q) ∧ AABB.intersectTri b v0 v1 v2 0 = true ∧ ∀ fused, intersectTriR binary64 fused b v0 v1 v2 0 = false := by
  refine ⟨⟨⟨-1, -1, -1⟩, ⟨binary64 (-9 / 10), 1, 1⟩⟩, ⟨-1, 0, 0⟩, ⟨-2, 1, 0⟩, ⟨-2, 0, 1⟩, by decide +kernel, ?_, ⟨⟨-1, 0, 0⟩, ⟨1, 0, 0, by norm_num, le_rfl, le_rfl, by norm_num, by norm_num, by norm_num, by norm_num⟩, ?_⟩,
    by decide +kernel, by decide +kernel⟩
  · have h1 : -1 < binary64 (-9 / 10) := by decide +kernel
    exact ⟨h1, by norm_num, by norm_num⟩
  · have h1 : -1 ≤ binary64 (-9 / 10) := by decide +kernel
    refine ⟨⟨by norm_num, ?_⟩, ⟨by norm_num, by norm_num⟩, by norm_num, by norm_num⟩
    simpa using h1

/-- The hypotheses are met: a triangle through the middle of the unit box, with corners outside. -/
example : ∀ fused, intersectTriR binary64 fused ⟨⟨0, 0, 0⟩, ⟨1, 1, 1⟩⟩ ⟨-1, 1 / 2, 1 / 2⟩ ⟨2, 1 / 2, 1 / 2⟩ ⟨2, 2, 2⟩ (1 / 1000) = true := by
  intro fused
  refine C116_binary64_partial fused (B := 2) (by norm_num [Within, abs_le]) (by norm_num [Within, abs_le]) (by norm_num) (by norm_num [Within, abs_le]) (by norm_num [Within, abs_le])
    (by norm_num [Within, abs_le]) (by norm_num) (by norm_num) ⟨⟨1 / 2, 1 / 2, 1 / 2⟩, ⟨1 / 2, 1 / 2, 0, by norm_num, by norm_num, le_rfl, by norm_num, by norm_num, by norm_num, by norm_num⟩, ?_⟩
  norm_num [InBoxTol]

/-- The hypotheses are met: a triangle beside the unit box that only its own plane separates from the box, in double precision. -/
example : ∀ fused, intersectTriR binary64 fused ⟨⟨0, 0, 0⟩, ⟨1, 1, 1⟩⟩ ⟨7 / 2, 0, 0⟩ ⟨0, 7 / 2, 0⟩ ⟨0, 0, 7 / 2⟩ 0 = false := by
  intro fused
  refine C116_separated_partial binary64_isRounding (by norm_num) fused (B := 7 / 2) (by norm_num [Within, abs_le]) (by norm_num [Within, abs_le]) (by norm_num) (by norm_num [Within, abs_le])
    (by norm_num [Within, abs_le]) (by norm_num [Within, abs_le]) le_rfl (n := vectorProduct (⟨0, 7 / 2, 0⟩ - ⟨7 / 2, 0, 0⟩) (⟨0, 0, 7 / 2⟩ - ⟨0, 7 / 2, 0⟩)) ⟨1, Or.inl ?_, Or.inr (Or.inr ⟨rfl, by norm_num⟩)⟩
  have e : vectorProduct (⟨0, 7 / 2, 0⟩ - ⟨7 / 2, 0, 0⟩) (⟨0, 0, 7 / 2⟩ - ⟨0, 7 / 2, 0⟩) = ⟨49 / 4, 49 / 4, 49 / 4⟩ := by decide +kernel
  rw [e]
  rintro q ⟨⟨x1, x2⟩, ⟨y1, y2⟩, z1, z2⟩ v hv
  simp only [List.mem_cons, List.not_mem_nil, or_false] at hv
  simp only at x2 y2 z2
  rcases hv with rfl | rfl | rfl <;> simp only <;> linarith

end QuESo.Props
