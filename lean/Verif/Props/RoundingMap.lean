import Verif.Model.RoundingMap
import Verif.Props.RoundingRule
import Verif.Props.Mapping

/-!
# C113: the maps between the two spaces in floating-point arithmetic
-/
namespace QuESo.Props
open QuESo.Spec QuESo.Round QuESo.Mapping

section
variable {rnd : ℚ → ℚ} {eps : ℚ} {big : Nat}

theorem Near.div (e0 : 0 ≤ eps) (he : eps ≤ 1 / 1000) {k : Nat} {a b c d : ℚ} (h : Near eps k a b) (hd : 0 < d) (h' : Near eps 1 c d) : Near eps (k + 2) (a / c) (b / d) := by
  obtain ⟨h0, h1, h2⟩ := h
  obtain ⟨g0, g1, g2⟩ := h'
  rw [pow_one] at g1 g2
  have z1 : 0 ≤ b * (1 - eps) ^ k := mul_nonneg h0 (pow_nonneg (by linarith) _)
  have hc : 0 < c := lt_of_lt_of_le (mul_pos hd (by linarith)) g1
  have ha : 0 ≤ a := z1.trans h1
  refine ⟨div_nonneg h0 hd.le, ?_, ?_⟩
  · rw [le_div_iff₀ hc]
    have q : (1 - eps) ^ 2 * (1 + eps) ≤ 1 := by
      have e : (1 - eps) ^ 2 * (1 + eps) = 1 - eps * (1 + eps * (1 - eps)) := by ring
      have : 0 ≤ eps * (1 + eps * (1 - eps)) := mul_nonneg e0 (by have := mul_nonneg e0 (show 0 ≤ 1 - eps by linarith); linarith)
      rw [e]; linarith
    calc b / d * (1 - eps) ^ (k + 2) * c ≤ b / d * (1 - eps) ^ (k + 2) * (d * (1 + eps)) :=
          mul_le_mul_of_nonneg_left g2 (mul_nonneg (div_nonneg h0 hd.le) (pow_nonneg (by linarith) _))
      _ = b * (1 - eps) ^ k * ((1 - eps) ^ 2 * (1 + eps)) := by rw [pow_add]; field_simp
      _ ≤ b * (1 - eps) ^ k * 1 := mul_le_mul_of_nonneg_left q z1
      _ ≤ a := by linarith
  · rw [div_le_iff₀ hc]
    have q : 1 ≤ (1 + eps) ^ 2 * (1 - eps) := by
      have e : (1 + eps) ^ 2 * (1 - eps) = 1 + eps * (1 - eps * (1 + eps)) := by ring
      have : 0 ≤ eps * (1 - eps * (1 + eps)) := mul_nonneg e0 (by have := mul_le_mul_of_nonneg_right he (show 0 ≤ 1 + eps by linarith); linarith)
      rw [e]; linarith
    have z2 : 0 ≤ b * (1 + eps) ^ k := mul_nonneg h0 (pow_nonneg (by linarith) _)
    calc a ≤ b * (1 + eps) ^ k * 1 := by linarith
      _ ≤ b * (1 + eps) ^ k * ((1 + eps) ^ 2 * (1 - eps)) := mul_le_mul_of_nonneg_left q z2
      _ = b / d * (1 + eps) ^ (k + 2) * (d * (1 - eps)) := by rw [pow_add]; field_simp
      _ ≤ b / d * (1 + eps) ^ (k + 2) * c := mul_le_mul_of_nonneg_left g1 (mul_nonneg (div_nonneg h0 hd.le) (pow_nonneg (by linarith) _))

theorem pow4_bounds (e0 : 0 ≤ eps) (he : eps ≤ 1 / 1000) : (1 + eps) ^ 4 ≤ 1 + 41 / 10 * eps ∧ 1 - 4 * eps ≤ (1 - eps) ^ 4 := by
  constructor
  · have p3 := pow3_le e0 he
    have : (1 + eps) ^ 4 = (1 + eps) ^ 3 * (1 + eps) := by ring
    have q := mul_le_mul_of_nonneg_right p3 (show 0 ≤ 1 + eps by linarith)
    rw [this]; nlinarith
  · have := one_add_mul_le_pow (a := -eps) (by linarith) 4
    have e : (1 + -eps) = 1 - eps := by ring
    rw [e] at this
    push_cast at this
    linarith

theorem scaleR_near (hr : IsRounding rnd eps big) (he : eps ≤ 1 / 1000) {sl su dl du : ℚ} (hs : sl < su) (hd : dl ≤ du) : Near eps 4 (scaleR rnd sl su dl du) ((du - dl) / (su - sl)) := by
  have e0 := eps_nonneg hr
  exact ((lenR_near hr (by linarith) hd).div e0 he (sub_pos.mpr hs) (lenR_near hr (by linarith) hs.le)).round hr (by linarith)

theorem scaleR_nonneg (hr : IsRounding rnd eps big) (sl su dl du : ℚ) : 0 ≤ scaleR rnd sl su dl du := by
  have h0 : rnd 0 = 0 := by simpa using hr.whole 0 (Nat.zero_le _)
  have := hr.mono 0 (|rnd (du - dl)| / |rnd (su - sl)|) (by positivity)
  rwa [h0] at this

theorem mapR_mono (hr : IsRounding rnd eps big) (fused : Bool) (sl su dl du : ℚ) {p q : ℚ} (h : p ≤ q) : mapR rnd fused sl su dl du p ≤ mapR rnd fused sl su dl du q := by
  have h1 := hr.mono (p - sl) (q - sl) (by linarith)
  have h2 := mul_le_mul_of_nonneg_right h1 (scaleR_nonneg hr sl su dl du)
  unfold mapR
  split
  · exact hr.mono _ _ (by linarith)
  · have := hr.mono _ _ h2
    exact hr.mono _ _ (by linarith)

theorem mapR_lower (hr : IsRounding rnd eps big) (fused : Bool) (sl su du : ℚ) {dl : ℚ} (h : rnd dl = dl) : mapR rnd fused sl su dl du sl = dl := by
  have h0 : rnd 0 = 0 := by simpa using hr.whole 0 (Nat.zero_le _)
  unfold mapR
  split <;> simp [h0, h]

/-- Error of the map at any point, in terms of the exact image `dl + (p - sl) (du - dl) / (su - sl)`. -/
theorem mapR_error (hr : IsRounding rnd eps big) (he : eps ≤ 1 / 1000) (fused : Bool) {sl su dl du : ℚ} (hs : sl < su) (hd : dl ≤ du) (p : ℚ) :
    |mapR rnd fused sl su dl du p - ((p - sl) * ((du - dl) / (su - sl)) + dl)| ≤
      eps * (13 / 2 * |(p - sl) * ((du - dl) / (su - sl))| + 101 / 100 * |(p - sl) * ((du - dl) / (su - sl)) + dl|) := by
  have e0 := eps_nonneg hr
  obtain ⟨n0, n1, n2⟩ := scaleR_near hr he hs hd
  set s := (du - dl) / (su - sl) with hsdef
  set s' := scaleR rnd sl su dl du with hs'
  obtain ⟨p1, p2⟩ := pow4_bounds e0 he
  set t := p - sl with ht
  have et := hr.error t
  have hds : |s' - s| ≤ 41 / 10 * eps * s := by
    have q1 := mul_le_mul_of_nonneg_left p1 n0
    have q2 := mul_le_mul_of_nonneg_left p2 n0
    have : 0 ≤ eps * s := mul_nonneg e0 n0
    rw [abs_le]; constructor <;> nlinarith
  have hT : |t * s| = |t| * s := by rw [abs_mul, abs_of_nonneg n0]
  have hT0 : 0 ≤ |t| * s := mul_nonneg (abs_nonneg _) n0
  -- the product, before its rounding
  have hP : |rnd t * s' - t * s| ≤ 52 / 10 * eps * (|t| * s) := by
    have e : rnd t * s' - t * s = rnd t * (s' - s) + (rnd t - t) * s := by ring
    have hrt : |rnd t| ≤ (1 + eps) * |t| := by
      have : rnd t = t + (rnd t - t) := by ring
      rw [this]; exact (abs_add_le _ _).trans (by linarith)
    rw [e]
    refine (abs_add_le _ _).trans ?_
    rw [abs_mul, abs_mul, abs_of_nonneg n0]
    have a1 : |rnd t| * |s' - s| ≤ ((1 + eps) * |t|) * (41 / 10 * eps * s) := mul_le_mul hrt hds (abs_nonneg _) (by positivity)
    have a2 : |rnd t - t| * s ≤ eps * |t| * s := mul_le_mul_of_nonneg_right et n0
    have a3 : eps * (eps * (|t| * s)) ≤ 1 / 1000 * (eps * (|t| * s)) := mul_le_mul_of_nonneg_right he (mul_nonneg e0 hT0)
    have z : 0 ≤ eps * (|t| * s) := mul_nonneg e0 hT0
    nlinarith
  -- after its rounding
  have key : ∀ Q, |Q - rnd t * s'| ≤ eps * |rnd t * s'| → |rnd (Q + dl) - (t * s + dl)| ≤ eps * (13 / 2 * |t * s| + 101 / 100 * |t * s + dl|) := by
    intro Q hQ
    have z : 0 ≤ eps * |t * s| := mul_nonneg e0 (abs_nonneg _)
    rw [← hT] at hP
    have hPabs : |rnd t * s'| ≤ |t * s| + |rnd t * s' - t * s| := by
      have : rnd t * s' = t * s + (rnd t * s' - t * s) := by ring
      calc |rnd t * s'| = |t * s + (rnd t * s' - t * s)| := by rw [← this]
        _ ≤ _ := abs_add_le _ _
    have a1 : eps * |rnd t * s'| ≤ eps * (|t * s| + |rnd t * s' - t * s|) := mul_le_mul_of_nonneg_left hPabs e0
    have a2 : eps * |rnd t * s' - t * s| ≤ 1 / 1000 * |rnd t * s' - t * s| := mul_le_mul_of_nonneg_right he (abs_nonneg _)
    have hQX : |Q - t * s| ≤ 63 / 10 * (eps * |t * s|) := by
      have : Q - t * s = (Q - rnd t * s') + (rnd t * s' - t * s) := by ring
      rw [this]
      refine (abs_add_le _ _).trans ?_
      nlinarith
    have e3 := hr.error (Q + dl)
    have habs : |Q + dl| ≤ |t * s + dl| + |Q - t * s| := by
      have : Q + dl = (t * s + dl) + (Q - t * s) := by ring
      rw [this]; exact abs_add_le _ _
    have a3 : eps * |Q + dl| ≤ eps * (|t * s + dl| + |Q - t * s|) := mul_le_mul_of_nonneg_left habs e0
    have a4 : eps * |Q - t * s| ≤ 1 / 1000 * |Q - t * s| := mul_le_mul_of_nonneg_right he (abs_nonneg _)
    have : rnd (Q + dl) - (t * s + dl) = (rnd (Q + dl) - (Q + dl)) + (Q - t * s) := by ring
    rw [this]
    refine (abs_add_le _ _).trans ?_
    have z2 : 0 ≤ eps * |t * s + dl| := mul_nonneg e0 (abs_nonneg _)
    nlinarith
  unfold mapR
  split
  · exact key _ (by rw [sub_self, abs_zero]; positivity)
  · exact key _ (hr.error _)

theorem box_bounds {sl su dl du p : ℚ} (hs : sl < su) (hd : dl ≤ du) (h1 : sl ≤ p) (h2 : p ≤ su) :
    |(p - sl) * ((du - dl) / (su - sl))| ≤ |dl| + |du| ∧ |(p - sl) * ((du - dl) / (su - sl)) + dl| ≤ |dl| + |du| := by
  have hn : 0 < su - sl := by linarith
  have z : 0 ≤ (p - sl) * ((du - dl) / (su - sl)) := mul_nonneg (by linarith) (div_nonneg (by linarith) hn.le)
  have u : (p - sl) * ((du - dl) / (su - sl)) ≤ du - dl := by
    calc (p - sl) * ((du - dl) / (su - sl)) ≤ (su - sl) * ((du - dl) / (su - sl)) := mul_le_mul_of_nonneg_right (by linarith) (div_nonneg (by linarith) hn.le)
      _ = du - dl := by field_simp
  have a1 := le_abs_self du
  have a2 := neg_abs_le dl
  have a3 := abs_nonneg dl
  have a4 := abs_nonneg du
  constructor
  · rw [abs_of_nonneg z]; linarith
  · rw [abs_le]; constructor <;> linarith

theorem mapR_error_box (hr : IsRounding rnd eps big) (he : eps ≤ 1 / 1000) (fused : Bool) {sl su dl du p : ℚ} (hs : sl < su) (hd : dl ≤ du) (h1 : sl ≤ p) (h2 : p ≤ su) :
    |mapR rnd fused sl su dl du p - ((p - sl) * ((du - dl) / (su - sl)) + dl)| ≤ 8 * eps * (|dl| + |du|) := by
  have e0 := eps_nonneg hr
  obtain ⟨b1, b2⟩ := box_bounds hs hd h1 h2
  refine (mapR_error hr he fused hs hd p).trans ?_
  have : eps * (13 / 2 * |(p - sl) * ((du - dl) / (su - sl))| + 101 / 100 * |(p - sl) * ((du - dl) / (su - sl)) + dl|) ≤ eps * (13 / 2 * (|dl| + |du|) + 101 / 100 * (|dl| + |du|)) :=
    mul_le_mul_of_nonneg_left (by linarith) e0
  have z : 0 ≤ eps * (|dl| + |du|) := mul_nonneg e0 (by positivity)
  linarith

theorem mapR_round_trip (hr : IsRounding rnd eps big) (he : eps ≤ 1 / 1000) (fused : Bool) {sl su dl du p : ℚ} (hs : sl < su) (hd : dl < du) (h1 : sl ≤ p) (h2 : p ≤ su) :
    |mapR rnd fused dl du sl su (mapR rnd fused sl su dl du p) - p| ≤ 9 * eps * (|sl| + |su| + (|dl| + |du|) * ((su - sl) / (du - dl))) := by
  have e0 := eps_nonneg hr
  have hn : 0 < su - sl := by linarith
  have hm : 0 < du - dl := by linarith
  have f1 := mapR_error_box hr he fused hs hd.le h1 h2
  set x := (p - sl) * ((du - dl) / (su - sl)) + dl with hx
  set p' := mapR rnd fused sl su dl du p with hp'
  set c := (su - sl) / (du - dl) with hc
  have hc0 : 0 < c := div_pos hn hm
  have f2 := mapR_error hr he fused hd hs.le p'
  rw [← hc] at f2
  have hback : (x - dl) * c = p - sl := by rw [hx, hc]; field_simp; ring
  have e1 : (p' - dl) * c = (p - sl) + (p' - x) * c := by rw [← hback]; ring
  set D := |p' - x| * c with hD
  have hDabs : |(p' - x) * c| = D := by rw [abs_mul, abs_of_pos hc0]
  have hDle : D ≤ 8 * eps * ((|dl| + |du|) * c) := by
    have := mul_le_mul_of_nonneg_right f1 hc0.le
    rw [hD]; linarith
  have hD0 : 0 ≤ D := mul_nonneg (abs_nonneg _) hc0.le
  set Ms := |sl| + |su| with hMs
  set G := (|dl| + |du|) * c with hG
  have hG0 : 0 ≤ G := mul_nonneg (by positivity) hc0.le
  have hMs0 : 0 ≤ Ms := by positivity
  have s1 := le_abs_self su
  have s2 := neg_abs_le sl
  have s3 := abs_nonneg sl
  have s4 := abs_nonneg su
  have a1 : |(p' - dl) * c| ≤ Ms + D := by
    rw [e1]
    refine (abs_add_le _ _).trans ?_
    rw [hDabs]
    have : |p - sl| ≤ Ms := by rw [abs_le]; constructor <;> linarith
    linarith
  have a2 : |(p' - dl) * c + sl| ≤ Ms + D := by
    have : (p' - dl) * c + sl = p + (p' - x) * c := by rw [e1]; ring
    rw [this]
    refine (abs_add_le _ _).trans ?_
    rw [hDabs]
    have : |p| ≤ Ms := by rw [abs_le]; constructor <;> linarith
    linarith
  have a3 : eps * (13 / 2 * |(p' - dl) * c| + 101 / 100 * |(p' - dl) * c + sl|) ≤ eps * (751 / 100 * (Ms + D)) := mul_le_mul_of_nonneg_left (by linarith) e0
  have a4 : eps * D ≤ 1 / 1000 * D := mul_le_mul_of_nonneg_right he hD0
  have e2 : mapR rnd fused dl du sl su p' - p = (mapR rnd fused dl du sl su p' - ((p' - dl) * c + sl)) + (p' - x) * c := by rw [e1]; ring
  rw [e2]
  refine (abs_add_le _ _).trans ?_
  rw [hDabs]
  have z1 : 0 ≤ eps * Ms := mul_nonneg e0 hMs0
  have z2 : 0 ≤ eps * G := mul_nonneg e0 hG0
  have e3 : eps * (751 / 100 * (Ms + D)) = 751 / 100 * (eps * Ms) + 751 / 100 * (eps * D) := by ring
  have e4 : 9 * eps * (Ms + G) = 9 * (eps * Ms) + 9 * (eps * G) := by ring
  rw [e3] at a3
  rw [e4]
  linarith

/-- **C113** (order).  For every machine arithmetic the computed maps keep the order of the coordinates: no two points are exchanged. -/
theorem C113_order (hr : IsRounding rnd eps big) (fused : Bool) (b : Bounds ℚ) (p q : V3 ℚ) :
    ((p.x ≤ q.x → (toGlobalR rnd fused p b).x ≤ (toGlobalR rnd fused q b).x) ∧ (p.y ≤ q.y → (toGlobalR rnd fused p b).y ≤ (toGlobalR rnd fused q b).y) ∧
      (p.z ≤ q.z → (toGlobalR rnd fused p b).z ≤ (toGlobalR rnd fused q b).z)) ∧
    ((p.x ≤ q.x → (toParametricR rnd fused p b).x ≤ (toParametricR rnd fused q b).x) ∧ (p.y ≤ q.y → (toParametricR rnd fused p b).y ≤ (toParametricR rnd fused q b).y) ∧
      (p.z ≤ q.z → (toParametricR rnd fused p b).z ≤ (toParametricR rnd fused q b).z)) :=
  ⟨⟨mapR_mono hr fused _ _ _ _, mapR_mono hr fused _ _ _ _, mapR_mono hr fused _ _ _ _⟩, mapR_mono hr fused _ _ _ _, mapR_mono hr fused _ _ _ _, mapR_mono hr fused _ _ _ _⟩

/-- **C113** (lower corners).  The lower corner of one box is mapped exactly to the lower corner of the other one, if that consists of numbers of the machine. -/
theorem C113_lower (hr : IsRounding rnd eps big) (fused : Bool) (b : Bounds ℚ) :
    (rnd b.global.lower.x = b.global.lower.x → rnd b.global.lower.y = b.global.lower.y → rnd b.global.lower.z = b.global.lower.z →
      toGlobalR rnd fused b.parametric.lower b = b.global.lower) ∧
    (rnd b.parametric.lower.x = b.parametric.lower.x → rnd b.parametric.lower.y = b.parametric.lower.y → rnd b.parametric.lower.z = b.parametric.lower.z →
      toParametricR rnd fused b.global.lower b = b.parametric.lower) := by
  constructor
  · intro h1 h2 h3
    unfold toGlobalR
    rw [mapR_lower hr fused _ _ _ h1, mapR_lower hr fused _ _ _ h2, mapR_lower hr fused _ _ _ h3]
  · intro h1 h2 h3
    unfold toParametricR
    rw [mapR_lower hr fused _ _ _ h1, mapR_lower hr fused _ _ _ h2, mapR_lower hr fused _ _ _ h3]

/-- **C113** (accuracy).  For every machine arithmetic with relative error at most `eps ≤ 1/1000`: the computed image of a point of one box is within `8 eps (|lower| + |upper|)` of the exact
image in the other box. -/
theorem C113_error (hr : IsRounding rnd eps big) (he : eps ≤ 1 / 1000) (fused : Bool) {b : Bounds ℚ} (hg : ProperBox b.global) (hp : ProperBox b.parametric) (p : V3 ℚ) :
    (InBox b.parametric p → |(toGlobalR rnd fused p b).x - (toGlobal p b).x| ≤ 8 * eps * (|b.global.lower.x| + |b.global.upper.x|) ∧
      |(toGlobalR rnd fused p b).y - (toGlobal p b).y| ≤ 8 * eps * (|b.global.lower.y| + |b.global.upper.y|) ∧
      |(toGlobalR rnd fused p b).z - (toGlobal p b).z| ≤ 8 * eps * (|b.global.lower.z| + |b.global.upper.z|)) ∧
    (InBox b.global p → |(toParametricR rnd fused p b).x - (toParametric p b).x| ≤ 8 * eps * (|b.parametric.lower.x| + |b.parametric.upper.x|) ∧
      |(toParametricR rnd fused p b).y - (toParametric p b).y| ≤ 8 * eps * (|b.parametric.lower.y| + |b.parametric.upper.y|) ∧
      |(toParametricR rnd fused p b).z - (toParametric p b).z| ≤ 8 * eps * (|b.parametric.lower.z| + |b.parametric.upper.z|)) := by
  obtain ⟨g1, g2, g3⟩ := hg
  obtain ⟨p1, p2, p3⟩ := hp
  constructor
  · rintro ⟨i1, i2, i3⟩
    simp only [toGlobalR, toGlobal, computeScale]
    rw [abs_of_pos (sub_pos.mpr g1), abs_of_pos (sub_pos.mpr g2), abs_of_pos (sub_pos.mpr g3), abs_of_pos (sub_pos.mpr p1), abs_of_pos (sub_pos.mpr p2), abs_of_pos (sub_pos.mpr p3)]
    exact ⟨mapR_error_box hr he fused p1 g1.le i1.1 i1.2, mapR_error_box hr he fused p2 g2.le i2.1 i2.2, mapR_error_box hr he fused p3 g3.le i3.1 i3.2⟩
  · rintro ⟨i1, i2, i3⟩
    simp only [toParametricR, toParametric, computeScale]
    rw [abs_of_pos (sub_pos.mpr g1), abs_of_pos (sub_pos.mpr g2), abs_of_pos (sub_pos.mpr g3), abs_of_pos (sub_pos.mpr p1), abs_of_pos (sub_pos.mpr p2), abs_of_pos (sub_pos.mpr p3)]
    exact ⟨mapR_error_box hr he fused g1 p1.le i1.1 i1.2, mapR_error_box hr he fused g2 p2.le i2.1 i2.2, mapR_error_box hr he fused g3 p3.le i3.1 i3.2⟩

/-- **C113** (partial: there and back again).  A point of one box, mapped to the other box and back, returns to its place up to
`9 eps (|lower| + |upper| + (|lower'| + |upper'|) · size / size')`, the primes denoting the other box.  Missing: exactly to its place, see `C113_false_of_code`. -/
theorem C113_round_trip_partial (hr : IsRounding rnd eps big) (he : eps ≤ 1 / 1000) (fused : Bool) {b : Bounds ℚ} (hg : ProperBox b.global) (hp : ProperBox b.parametric) (p : V3 ℚ)
    (h : InBox b.parametric p) :
    |(toParametricR rnd fused (toGlobalR rnd fused p b) b).x - p.x| ≤ 9 * eps * (|b.parametric.lower.x| + |b.parametric.upper.x| +
      (|b.global.lower.x| + |b.global.upper.x|) * ((b.parametric.upper.x - b.parametric.lower.x) / (b.global.upper.x - b.global.lower.x))) ∧
    |(toParametricR rnd fused (toGlobalR rnd fused p b) b).y - p.y| ≤ 9 * eps * (|b.parametric.lower.y| + |b.parametric.upper.y| +
      (|b.global.lower.y| + |b.global.upper.y|) * ((b.parametric.upper.y - b.parametric.lower.y) / (b.global.upper.y - b.global.lower.y))) ∧
    |(toParametricR rnd fused (toGlobalR rnd fused p b) b).z - p.z| ≤ 9 * eps * (|b.parametric.lower.z| + |b.parametric.upper.z| +
      (|b.global.lower.z| + |b.global.upper.z|) * ((b.parametric.upper.z - b.parametric.lower.z) / (b.global.upper.z - b.global.lower.z))) := by
  obtain ⟨g1, g2, g3⟩ := hg
  obtain ⟨p1, p2, p3⟩ := hp
  obtain ⟨i1, i2, i3⟩ := h
  exact ⟨mapR_round_trip hr he fused p1 g1 i1.1 i1.2, mapR_round_trip hr he fused p2 g2 i2.1 i2.2, mapR_round_trip hr he fused p3 g3 i3.1 i3.2⟩

end

/-- **C113 is false of the code** for the upper corners and for exact returns: in double precision, with a parametric box from 0 to 49 and a global box from 0 to 1, the upper corner is mapped to a
point below the upper corner, and the way back does not lead to where it came from. -/
theorem C113_false_of_code : ∃ b : Bounds ℚ, ProperBox b.global ∧ ProperBox b.parametric ∧ ∀ fused,
    (toGlobalR binary64 fused b.parametric.upper b).x < b.global.upper.x ∧ toParametricR binary64 fused (toGlobalR binary64 fused b.parametric.upper b) b ≠ b.parametric.upper := by
  refine ⟨⟨⟨⟨0, 0, 0⟩, ⟨1, 1, 1⟩⟩, ⟨⟨0, 0, 0⟩, ⟨49, 49, 49⟩⟩⟩, by norm_num [ProperBox], by norm_num [ProperBox], ?_⟩
  decide +kernel

/-- A concrete case of the error bounds: the middle of a box, in double precision. -/
example : let b : Bounds ℚ := ⟨⟨⟨1, 1, 1⟩, ⟨2, 3, 4⟩⟩, ⟨⟨0, 0, 0⟩, ⟨49, 49, 49⟩⟩⟩
    |(toParametricR binary64 false (toGlobalR binary64 false ⟨49 / 2, 1, 7⟩ b) b).x - 49 / 2| ≤ 1 / 10 ^ 12 := by
  intro b
  refine (C113_round_trip_partial binary64_isRounding (by norm_num) false (b := b) (by norm_num [ProperBox, b]) (by norm_num [ProperBox, b]) ⟨49 / 2, 1, 7⟩ (by norm_num [InBox, b])).1.trans ?_
  norm_num [b]

end QuESo.Props
