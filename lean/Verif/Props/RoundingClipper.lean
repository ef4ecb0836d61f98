import Verif.Model.RoundingClipper
import Verif.Props.RoundingRule
import Verif.Props.Clipper

/-!
# C115: clipping in floating-point arithmetic
-/
namespace QuESo.Props
open QuESo.Spec QuESo.Round QuESo.Clip

section
variable {rnd : ℚ → ℚ} {eps : ℚ} {big : Nat}

/-- Rounding of a number near `t`. -/
theorem rnd_near12 (hr : IsRounding rnd eps big) (he : eps ≤ 1 / 1000) {v t B : ℚ} {a : ℚ} (ht : |t| ≤ B) (ha' : a ≤ 12) (h : |v - t| ≤ a * (eps * B)) : |rnd v - t| ≤ (a + 102 / 100) * (eps * B) := by
  have e0 := eps_nonneg hr
  have hB : 0 ≤ B := (abs_nonneg _).trans ht
  have z : 0 ≤ eps * B := mul_nonneg e0 hB
  have e := hr.error v
  have hv : |v| ≤ B + a * (eps * B) := by
    have : v = t + (v - t) := by ring
    calc |v| = |t + (v - t)| := by rw [← this]
      _ ≤ |t| + |v - t| := abs_add_le _ _
      _ ≤ _ := by linarith
  have h1 : eps * |v| ≤ eps * (B + a * (eps * B)) := mul_le_mul_of_nonneg_left hv e0
  have h2 : eps * (eps * B) ≤ 1 / 1000 * (eps * B) := mul_le_mul_of_nonneg_right he z
  have h3 : a * (eps * (eps * B)) ≤ 12 * (eps * (eps * B)) := mul_le_mul_of_nonneg_right ha' (mul_nonneg e0 z)
  have h4 : eps * (B + a * (eps * B)) = eps * B + a * (eps * (eps * B)) := by ring
  have : rnd v - t = (rnd v - v) + (v - t) := by ring
  rw [this]
  refine (abs_add_le _ _).trans ?_
  rw [h4] at h1
  linarith

theorem rnd_zero (hr : IsRounding rnd eps big) : rnd 0 = 0 := by simpa using hr.whole 0 (Nat.zero_le _)

theorem rnd_nonneg (hr : IsRounding rnd eps big) {x : ℚ} (h : 0 ≤ x) : 0 ≤ rnd x := by simpa [rnd_zero hr] using hr.mono 0 x h

theorem rnd_nonpos (hr : IsRounding rnd eps big) {x : ℚ} (h : x ≤ 0) : rnd x ≤ 0 := by simpa [rnd_zero hr] using hr.mono x 0 h

theorem rnd_ne (hr : IsRounding rnd eps big) (he : eps ≤ 1 / 1000) {x : ℚ} (h : x ≠ 0) : 99 / 100 * |x| ≤ |rnd x| := by
  have e := hr.error x
  have h1 : eps * |x| ≤ 1 / 1000 * |x| := mul_le_mul_of_nonneg_right he (abs_nonneg _)
  have h2 := abs_sub_abs_le_abs_sub x (rnd x)
  rw [abs_sub_comm x] at h2
  have := abs_nonneg x
  linarith

/-- The parameter of the point on the plane. -/
theorem param_near (hr : IsRounding rnd eps big) (hb : 1 ≤ big) (he : eps ≤ 1 / 1000) {pos a b : ℚ} (h : (a < pos ∧ pos < b) ∨ (b < pos ∧ pos < a)) :
    (0 ≤ paramR rnd pos a b ∧ paramR rnd pos a b ≤ 1) ∧ (0 ≤ (pos - a) / (b - a) ∧ (pos - a) / (b - a) ≤ 1) ∧ |paramR rnd pos a b - (pos - a) / (b - a)| ≤ 31 / 10 * eps := by
  have e0 := eps_nonneg hr
  set N := pos - a with hN
  set D := b - a with hD
  have hsg : (0 < N ∧ N < D) ∨ (D < N ∧ N < 0) := by
    rcases h with ⟨h1, h2⟩ | ⟨h1, h2⟩
    · left; constructor <;> simp only [hN, hD] <;> linarith
    · right; constructor <;> simp only [hN, hD] <;> linarith
  have hD0 : D ≠ 0 := by rcases hsg with ⟨h1, h2⟩ | ⟨h1, h2⟩ <;> intro h <;> linarith
  have hd := rnd_ne hr he hD0
  have hDp : 0 < |D| := abs_pos.2 hD0
  have hdp : 0 < |rnd D| := by linarith
  have hd0 : rnd D ≠ 0 := abs_pos.1 hdp
  have hND : |N| ≤ |D| := by
    rcases hsg with ⟨h1, h2⟩ | ⟨h1, h2⟩
    · rw [abs_of_pos h1, abs_of_pos (h1.trans h2)]; exact h2.le
    · rw [abs_of_neg h2, abs_of_neg (h1.trans h2)]; linarith
  have hq : 0 ≤ rnd N / rnd D ∧ rnd N / rnd D ≤ 1 := by
    rcases hsg with ⟨h1, h2⟩ | ⟨h1, h2⟩
    · have g1 := rnd_nonneg hr h1.le
      have g2 := hr.mono _ _ h2.le
      have g3 : 0 < rnd D := lt_of_le_of_ne (g1.trans g2) (Ne.symm hd0)
      exact ⟨div_nonneg g1 g3.le, (div_le_one g3).2 g2⟩
    · have g1 := rnd_nonpos hr h2.le
      have g2 := hr.mono _ _ h1.le
      have g3 : rnd D < 0 := lt_of_le_of_ne (g2.trans g1) hd0
      exact ⟨div_nonneg_of_nonpos g1 g3.le, (div_le_one_of_neg g3).2 g2⟩
  have hs : 0 ≤ N / D ∧ N / D ≤ 1 := by
    rcases hsg with ⟨h1, h2⟩ | ⟨h1, h2⟩
    · have g3 : 0 < D := h1.trans h2
      exact ⟨div_nonneg h1.le g3.le, (div_le_one g3).2 h2.le⟩
    · have g3 : D < 0 := h1.trans h2
      exact ⟨div_nonneg_of_nonpos h2.le g3.le, (div_le_one_of_neg g3).2 h1.le⟩
  have hone : rnd 1 = 1 := by simpa using hr.whole 1 hb
  refine ⟨⟨rnd_nonneg hr hq.1, ?_⟩, hs, ?_⟩
  · have := hr.mono _ _ hq.2
    rwa [hone] at this
  · have h1 : |rnd N / rnd D - N / D| ≤ 21 / 10 * eps := by
      have e : rnd N / rnd D - N / D = ((rnd N - N) * D - N * (rnd D - D)) / (rnd D * D) := by field_simp; ring
      rw [e, abs_div, abs_mul, div_le_iff₀ (mul_pos hdp hDp)]
      have k1 : |(rnd N - N) * D - N * (rnd D - D)| ≤ |(rnd N - N) * D| + |N * (rnd D - D)| := abs_sub _ _
      rw [abs_mul, abs_mul] at k1
      have k2 : |rnd N - N| * |D| ≤ eps * |D| * |D| := mul_le_mul_of_nonneg_right ((hr.error N).trans (mul_le_mul_of_nonneg_left hND e0)) hDp.le
      have k3 : |N| * |rnd D - D| ≤ |D| * (eps * |D|) := mul_le_mul hND (hr.error D) (abs_nonneg _) hDp.le
      have k4 : eps * |D| * (99 / 100 * |D|) ≤ eps * |D| * |rnd D| := mul_le_mul_of_nonneg_left hd (mul_nonneg e0 hDp.le)
      have k5 : 0 ≤ eps * |D| * |D| := mul_nonneg (mul_nonneg e0 hDp.le) hDp.le
      have k6 : |D| * (eps * |D|) = eps * |D| * |D| := by ring
      have k7 : 21 / 10 * eps * (|rnd D| * |D|) = 21 / 10 * (eps * |D| * |rnd D|) := by ring
      have k8 : eps * |D| * (99 / 100 * |D|) = 99 / 100 * (eps * |D| * |D|) := by ring
      rw [k6] at k3
      rw [k8] at k4
      rw [k7]
      linarith
    have h2 : |rnd (rnd N / rnd D) - rnd N / rnd D| ≤ eps := by
      have := hr.error (rnd N / rnd D)
      rw [abs_of_nonneg hq.1] at this
      have := mul_le_mul_of_nonneg_left hq.2 e0
      linarith
    have : paramR rnd pos a b - N / D = (rnd (rnd N / rnd D) - rnd N / rnd D) + (rnd N / rnd D - N / D) := by unfold paramR; ring
    rw [this]
    refine (abs_add_le _ _).trans ?_
    linarith

/-- One component of the point on the plane. -/
theorem lerp_near (hr : IsRounding rnd eps big) (he : eps ≤ 1 / 1000) (fused : Bool) {a b t s B : ℚ} (ha : |a| ≤ B) (hb : |b| ≤ B) (ht : 0 ≤ t ∧ t ≤ 1) (hs : 0 ≤ s ∧ s ≤ 1) (h : |t - s| ≤ 31 / 10 * eps) :
    |lerpR rnd fused a b t - (a + s * (b - a))| ≤ 12 * (eps * B) := by
  have e0 := eps_nonneg hr
  have hB : 0 ≤ B := (abs_nonneg _).trans ha
  have z : 0 ≤ eps * B := mul_nonneg e0 hB
  have hba : |b - a| ≤ 2 * B := by rw [abs_le] at *; constructor <;> linarith
  have hd : |rnd (b - a) - (b - a)| ≤ 2 * (eps * B) := by
    have := mul_le_mul_of_nonneg_left hba e0
    have := hr.error (b - a)
    linarith
  have h1 : |t * rnd (b - a) - s * (b - a)| ≤ 82 / 10 * (eps * B) := by
    have e : t * rnd (b - a) - s * (b - a) = t * (rnd (b - a) - (b - a)) + (t - s) * (b - a) := by ring
    rw [e]
    refine (abs_add_le _ _).trans ?_
    rw [abs_mul, abs_mul, abs_of_nonneg ht.1]
    have k1 : t * |rnd (b - a) - (b - a)| ≤ 1 * |rnd (b - a) - (b - a)| := mul_le_mul_of_nonneg_right ht.2 (abs_nonneg _)
    have k2 : |t - s| * |b - a| ≤ 31 / 10 * eps * (2 * B) := mul_le_mul h hba (abs_nonneg _) (by linarith)
    linarith
  have hc : |a + s * (b - a)| ≤ B := by
    have := convex_combination (p := a) (q := b) hs.1 hs.2 (r := B)
    have h2 := convex_combination (p := a) (q := b) hs.1 hs.2 (r := -B)
    rw [abs_le] at *
    exact ⟨h2.1 ha.1 hb.1, this.2.1 ha.2 hb.2⟩
  have hsb : |s * (b - a)| ≤ 2 * B := by
    rw [abs_mul, abs_of_nonneg hs.1]
    have := mul_le_mul_of_nonneg_right hs.2 (abs_nonneg (b - a))
    linarith
  unfold lerpR
  split
  · have := rnd_near12 hr he hc (a := 82 / 10) (v := a + t * rnd (b - a)) (by norm_num) (by rwa [show a + t * rnd (b - a) - (a + s * (b - a)) = t * rnd (b - a) - s * (b - a) by ring])
    linarith
  · have h2 : |rnd (t * rnd (b - a)) - s * (b - a)| ≤ 1025 / 100 * (eps * B) := by
      have := rnd_near12 hr he hsb (a := 41 / 10) (v := t * rnd (b - a)) (by norm_num) (by linarith)
      linarith
    have := rnd_near12 hr he hc (a := 1025 / 100) (v := a + rnd (t * rnd (b - a))) (by norm_num)
      (by rwa [show a + rnd (t * rnd (b - a)) - (a + s * (b - a)) = rnd (t * rnd (b - a)) - s * (b - a) by ring])
    linarith

theorem classifyR_eq (p : V3 ℚ) (pl : Plane ℚ) (tol : ℚ) :
    classifyR rnd p pl tol = if rnd (dist pl p) > tol then .front else if rnd (dist pl p) < -tol then .behind else .on := by
  unfold classifyR Clip.dist
  by_cases h : pl.index % 2 = 0 <;> simp [h]

theorem front_pos (hr : IsRounding rnd eps big) {p : V3 ℚ} {pl : Plane ℚ} {tol : ℚ} (ht : 0 ≤ tol) (h : classifyR rnd p pl tol = .front) : 0 < dist pl p := by
  rw [classifyR_eq] at h
  split at h
  · rename_i h1
    by_contra hn
    have := rnd_nonpos hr (not_lt.1 hn)
    linarith
  · split at h <;> cases h

theorem behind_neg (hr : IsRounding rnd eps big) {p : V3 ℚ} {pl : Plane ℚ} {tol : ℚ} (ht : 0 ≤ tol) (h : classifyR rnd p pl tol = .behind) : dist pl p < 0 := by
  rw [classifyR_eq] at h
  split at h
  · cases h
  · split at h
    · rename_i h1
      by_contra hn
      have := rnd_nonneg hr (not_lt.1 hn)
      linarith
    · cases h

theorem on_near (hr : IsRounding rnd eps big) (he : eps ≤ 1 / 1000) {p : V3 ℚ} {pl : Plane ℚ} {tol : ℚ} (h : classifyR rnd p pl tol = .on) : 99 / 100 * |dist pl p| ≤ tol := by
  rw [classifyR_eq] at h
  split at h
  · cases h
  · split at h
    · cases h
    · rename_i h1 h2
      have h3 : |rnd (dist pl p)| ≤ tol := abs_le.2 ⟨not_lt.1 h2, not_lt.1 h1⟩
      by_cases h0 : dist pl p = 0
      · rw [h0, abs_zero, mul_zero]; exact (abs_nonneg _).trans h3
      · exact (rnd_ne hr he h0).trans h3

theorem tol_bounds (hr : IsRounding rnd eps big) (he : eps ≤ 1 / 1000) {zt : ℚ} (hz : 0 ≤ zt) : 0 ≤ rnd (10 * zt) ∧ rnd (10 * zt) ≤ 1001 / 100 * zt := by
  refine ⟨rnd_nonneg hr (by linarith), ?_⟩
  have e := hr.error (10 * zt)
  rw [abs_of_nonneg (by linarith : (0 : ℚ) ≤ 10 * zt)] at e
  have := mul_le_mul_of_nonneg_right he (by linarith : (0 : ℚ) ≤ 10 * zt)
  have := (abs_le.1 e).2
  linarith

theorem get_setR (r : V3 ℚ) (i j : Nat) (x : ℚ) : (r.set i x).get j = r.get j ∨ ((r.set i x).get j = x ∧ ∀ v : V3 ℚ, v.get j = v.get i) := by
  match i, j with
  | 0, 0 => right; exact ⟨rfl, fun _ => rfl⟩
  | 0, 1 => left; rfl
  | 0, _ + 2 => left; rfl
  | 1, 0 => left; rfl
  | 1, 1 => right; exact ⟨rfl, fun _ => rfl⟩
  | 1, _ + 2 => left; rfl
  | _ + 2, 0 => left; rfl
  | _ + 2, 1 => left; rfl
  | _ + 2, _ + 2 => right; exact ⟨rfl, fun _ => rfl⟩

theorem dist_diff {pl : Plane ℚ} {p q : V3 ℚ} {e : ℚ} (h : |p.get (pl.index / 2) - q.get (pl.index / 2)| ≤ e) : |dist pl p - dist pl q| ≤ e := by
  unfold Clip.dist
  split
  · rw [abs_sub_comm] at h
    convert h using 2; ring
  · convert h using 2; ring

/-- The new vertex: it exists, it is near a point of the edge, it is on the plane, and it has the flag of the plane and those that both ends have. -/
theorem crossing_near (hr : IsRounding rnd eps big) (hb : 1 ≤ big) (he : eps ≤ 1 / 1000) (fused : Bool) {zt B : ℚ} (hz : 0 ≤ zt) {a b : Vtx ℚ} {pl : Plane ℚ}
    (ha : ∀ i, |a.pt.get i| ≤ B) (hb' : ∀ i, |b.pt.get i| ≤ B) (h : (dist pl a.pt < 0 ∧ 0 < dist pl b.pt) ∨ (dist pl b.pt < 0 ∧ 0 < dist pl a.pt)) :
    ∃ m, crossingR rnd fused zt a b pl = .ok m ∧ (∃ s, 0 ≤ s ∧ s ≤ 1 ∧ ∀ i, |m.pt.get i - (lerp a.pt b.pt s).get i| ≤ 12 * (eps * B)) ∧ |dist pl m.pt| ≤ 11 * zt ∧
      ∀ j, m.on j = true → j = pl.index ∨ (a.on j = true ∧ b.on j = true) := by
  have e0 := eps_nonneg hr
  have hB : 0 ≤ B := (abs_nonneg _).trans (ha 0)
  have hop : (a.pt.get (pl.index / 2) < pl.position ∧ pl.position < b.pt.get (pl.index / 2)) ∨ (b.pt.get (pl.index / 2) < pl.position ∧ pl.position < a.pt.get (pl.index / 2)) := by
    unfold Clip.dist at h
    split at h <;> rcases h with ⟨h1, h2⟩ | ⟨h1, h2⟩
    · right; constructor <;> linarith
    · left; constructor <;> linarith
    · left; constructor <;> linarith
    · right; constructor <;> linarith
  obtain ⟨ht, hs, hts⟩ := param_near hr hb he hop
  set t := paramR rnd pl.position (a.pt.get (pl.index / 2)) (b.pt.get (pl.index / 2)) with htd
  set s := (pl.position - a.pt.get (pl.index / 2)) / (b.pt.get (pl.index / 2) - a.pt.get (pl.index / 2)) with hsd
  let r : V3 ℚ := ⟨lerpR rnd fused a.pt.x b.pt.x t, lerpR rnd fused a.pt.y b.pt.y t, lerpR rnd fused a.pt.z b.pt.z t⟩
  have hget : ∀ i, r.get i = lerpR rnd fused (a.pt.get i) (b.pt.get i) t := by
    intro i
    match i with
    | 0 => rfl
    | 1 => rfl
    | _ + 2 => rfl
  have hnear : ∀ i, |r.get i - (lerp a.pt b.pt s).get i| ≤ 12 * (eps * B) := by
    intro i
    rw [hget, get_lerp]
    exact lerp_near hr he fused (ha i) (hb' i) ht hs hts
  have hpos : (lerp a.pt b.pt s).get (pl.index / 2) = pl.position := by
    rw [get_lerp, hsd]
    have : b.pt.get (pl.index / 2) - a.pt.get (pl.index / 2) ≠ 0 := by
      rcases hop with ⟨h1, h2⟩ | ⟨h1, h2⟩ <;> intro h0 <;> linarith
    field_simp
    ring
  have hz' : (0 : ℚ) ≤ 12 * (eps * B) := by have := mul_nonneg e0 hB; linarith
  have flags : ∀ q : V3 ℚ, ∀ j, (Vtx.set ⟨q, fun j => decide (j < pl.index) && (a.on j && b.on j)⟩ pl.index).on j = true → j = pl.index ∨ (a.on j = true ∧ b.on j = true) := by
    intro q j hj
    simp only [Vtx.set] at hj
    split at hj
    · left; assumption
    · simp only [Bool.and_eq_true] at hj
      exact Or.inr hj.2
  by_cases hc : classifyR rnd r pl zt = .on
  · refine ⟨Vtx.set ⟨r, _⟩ pl.index, ?_, ⟨s, hs.1, hs.2, hnear⟩, ?_, flags r⟩
    · unfold crossingR intersectionR
      simp only [← htd]
      rw [if_pos ht, if_neg (by simpa [r] using hc)]
      rfl
    · have := on_near hr he hc
      show |dist pl r| ≤ 11 * zt
      linarith
  · refine ⟨Vtx.set ⟨r.set (pl.index / 2) pl.position, _⟩ pl.index, ?_, ⟨s, hs.1, hs.2, ?_⟩, ?_, flags _⟩
    · unfold crossingR intersectionR
      simp only [← htd]
      rw [if_pos ht, if_pos (by simpa [r] using hc)]
      rfl
    · intro i
      show |(r.set (pl.index / 2) pl.position).get i - _| ≤ _
      rcases get_setR r (pl.index / 2) i pl.position with h1 | ⟨h1, h2⟩
      · rw [h1]; exact hnear i
      · rw [h1, h2, hpos, sub_self, abs_zero]; exact hz'
    · show |dist pl (r.set (pl.index / 2) pl.position)| ≤ _
      have h0 : (r.set (pl.index / 2) pl.position).get (pl.index / 2) = pl.position := by
        generalize pl.index / 2 = i
        match i with
        | 0 => rfl
        | 1 => rfl
        | _ + 2 => rfl
      unfold Clip.dist
      rw [h0]
      simp [hz]

/-- What holds for the vertices of a polygon holds for those of the clipped polygon; the only error is that of the capacity. -/
theorem clipPlaneR_all {fused : Bool} {zt : ℚ} {pl : Plane ℚ} {P Q : Vtx ℚ → Prop}
    (hbeh : ∀ v, P v → classifyR rnd v.pt pl (rnd (10 * zt)) = .behind → Q v) (hon : ∀ v, P v → classifyR rnd v.pt pl (rnd (10 * zt)) = .on → Q (v.set pl.index))
    (hcr : ∀ a b, P a → P b → (classifyR rnd a.pt pl (rnd (10 * zt)) = .behind ∧ classifyR rnd b.pt pl (rnd (10 * zt)) = .front ∨
      classifyR rnd a.pt pl (rnd (10 * zt)) = .front ∧ classifyR rnd b.pt pl (rnd (10 * zt)) = .behind) → ∃ m, crossingR rnd fused zt a b pl = .ok m ∧ Q m)
    {prev : List (Vtx ℚ)} (hP : ∀ v ∈ prev, P v) : clipPlaneR rnd fused zt pl prev = .error .capacity ∨ ∃ out, clipPlaneR rnd fused zt pl prev = .ok out ∧ ∀ v ∈ out, Q v := by
  have add : ∀ (cur : List (Vtx ℚ)) v, (∀ v ∈ cur, Q v) → Q v → addVertexR cur v = .error .capacity ∨ ∃ out, addVertexR cur v = .ok out ∧ ∀ v ∈ out, Q v := by
    intro cur v hc hv
    unfold addVertexR
    split
    · exact Or.inl rfl
    · refine Or.inr ⟨_, rfl, fun w hw => ?_⟩
      rcases List.mem_append.1 hw with h | h
      · exact hc w h
      · rw [List.mem_singleton.1 h]; exact hv
  have add2 : ∀ (cur : List (Vtx ℚ)) v w, (∀ v ∈ cur, Q v) → Q v → Q w → ((addVertexR cur v).bind fun c => addVertexR c w) = .error .capacity ∨
      ∃ out, ((addVertexR cur v).bind fun c => addVertexR c w) = .ok out ∧ ∀ v ∈ out, Q v := by
    intro cur v w hc hv hw
    rcases add cur v hc hv with h | ⟨o, h, ho⟩
    · rw [h]; exact Or.inl rfl
    · rw [h]; exact add o w ho hw
  have step : ∀ a b, P a → P b → ∀ cur : List (Vtx ℚ), (∀ v ∈ cur, Q v) → clipStepR rnd fused zt pl a b cur = .error .capacity ∨ ∃ out, clipStepR rnd fused zt pl a b cur = .ok out ∧ ∀ v ∈ out, Q v := by
    intro a b pa pb cur hc
    unfold clipStepR
    split
    · rename_i h1 h2
      obtain ⟨m, hm, qm⟩ := hcr a b pa pb (Or.inl ⟨h2, h1⟩)
      rw [hm]
      exact add cur m hc qm
    · exact Or.inr ⟨cur, rfl, hc⟩
    · rename_i h1 h2
      exact add cur _ hc (hon b pb h1)
    · exact Or.inr ⟨cur, rfl, hc⟩
    · rename_i h1 h2
      obtain ⟨m, hm, qm⟩ := hcr a b pa pb (Or.inr ⟨h2, h1⟩)
      rw [hm]
      exact add2 cur m b hc qm (hbeh b pb h1)
    · rename_i h1 h2
      exact add2 cur _ b hc (hon a pa h2) (hbeh b pb h1)
    · rename_i h1 h2
      exact add cur b hc (hbeh b pb h1)
  have loop : ∀ (rest : List (Vtx ℚ)) a, P a → (∀ v ∈ rest, P v) → ∀ cur : List (Vtx ℚ), (∀ v ∈ cur, Q v) →
      clipLoopR rnd fused zt pl a rest cur = .error .capacity ∨ ∃ out, clipLoopR rnd fused zt pl a rest cur = .ok out ∧ ∀ v ∈ out, Q v := by
    intro rest
    induction rest with
    | nil => exact fun a _ _ cur hc => Or.inr ⟨cur, rfl, hc⟩
    | cons b rest ih =>
      intro a pa hr cur hc
      rw [clipLoopR]
      rcases step a b pa (hr b (by simp)) cur hc with h | ⟨o, h, ho⟩
      · rw [h]; exact Or.inl rfl
      · rw [h]; exact ih b (hr b (by simp)) (fun v hv => hr v (by simp [hv])) o ho
  unfold clipPlaneR
  split
  · exact Or.inr ⟨[], rfl, by simp⟩
  · rename_i a ha
    exact loop prev a (hP a (List.mem_of_getLast? ha)) hP [] (by simp)

/-- The corners of the triangle have coordinates of size at most `M`. -/
def Within (M : ℚ) (p : V3 ℚ) : Prop := |p.x| ≤ M ∧ |p.y| ≤ M ∧ |p.z| ≤ M

theorem Within.get {M : ℚ} {p : V3 ℚ} (h : Within M p) (i : Nat) : |p.get i| ≤ M := by
  match i with
  | 0 => exact h.1
  | 1 => exact h.2.1
  | _ + 2 => exact h.2.2

theorem triangle_within {M : ℚ} {p1 p2 p3 q : V3 ℚ} (h1 : Within M p1) (h2 : Within M p2) (h3 : Within M p3) (hq : InTriangle p1 p2 p3 q) (i : Nat) : |q.get i| ≤ M := by
  obtain ⟨u, v, w, hu, hv, hw, hs, hx, hy, hz⟩ := hq
  have e : q.get i = u * p1.get i + v * p2.get i + w * p3.get i := by
    match i with
    | 0 => exact hx
    | 1 => exact hy
    | _ + 2 => exact hz
  rw [e]
  have a1 := mul_le_mul_of_nonneg_left (h1.get i) hu
  have a2 := mul_le_mul_of_nonneg_left (h2.get i) hv
  have a3 := mul_le_mul_of_nonneg_left (h3.get i) hw
  have b1 := abs_add_le (u * p1.get i + v * p2.get i) (w * p3.get i)
  have b2 := abs_add_le (u * p1.get i) (v * p2.get i)
  rw [abs_mul, abs_mul, abs_of_nonneg hu, abs_of_nonneg hv] at b2
  rw [abs_mul w, abs_of_nonneg hw] at b1
  have : u * M + v * M + w * M = M := by rw [← add_mul, ← add_mul, hs, one_mul]
  linarith

/-- What is known of a vertex after the planes below `n`. -/
structure Known (zt : ℚ) (p1 p2 p3 lo up : V3 ℚ) (n : Nat) (e : ℚ) (v : Vtx ℚ) : Prop where
  hull : ∃ q, InTriangle p1 p2 p3 q ∧ ∀ i, |v.pt.get i - q.get i| ≤ e
  side : ∀ k, k < n → Active lo up (triMin p1 p2 p3) (triMax p1 p2 p3) k → dist (plane lo up k) v.pt ≤ 11 * zt + e
  flag : ∀ k, v.on k = true → k < n ∧ |dist (plane lo up k) v.pt| ≤ 11 * zt + e

theorem Known.mono {zt e e' : ℚ} {p1 p2 p3 lo up : V3 ℚ} {n : Nat} {v : Vtx ℚ} (h : Known zt p1 p2 p3 lo up n e v) (he : e ≤ e')
    (hn : Active lo up (triMin p1 p2 p3) (triMax p1 p2 p3) n → dist (plane lo up n) v.pt ≤ 11 * zt + e') : Known zt p1 p2 p3 lo up (n + 1) e' v := by
  obtain ⟨q, hq, hd⟩ := h.hull
  refine ⟨⟨q, hq, fun i => (hd i).trans he⟩, fun k hk ha => ?_, fun k hk => ?_⟩
  · rcases Nat.lt_succ_iff_lt_or_eq.1 hk with h1 | rfl
    · have := h.side k h1 ha; linarith
    · exact hn ha
  · obtain ⟨h1, h2⟩ := h.flag k hk
    exact ⟨by omega, by linarith⟩

theorem side_step (hr : IsRounding rnd eps big) (hb : 1 ≤ big) (he : eps ≤ 1 / 1000) (fused : Bool) {zt M e : ℚ} (hz : 0 ≤ zt) {p1 p2 p3 lo up : V3 ℚ} (h1 : Within M p1) (h2 : Within M p2)
    (h3 : Within M p3) (he0 : 0 ≤ e) (heM : e ≤ M) {n : Nat} {poly : List (Vtx ℚ)} (hp : ∀ v ∈ poly, Known zt p1 p2 p3 lo up n e v) :
    clipSideR rnd fused zt lo up (triMin p1 p2 p3) (triMax p1 p2 p3) n poly = .error .capacity ∨
      ∃ out, clipSideR rnd fused zt lo up (triMin p1 p2 p3) (triMax p1 p2 p3) n poly = .ok out ∧ ∀ v ∈ out, Known zt p1 p2 p3 lo up (n + 1) (e + 24 * eps * M) v := by
  have e0 := eps_nonneg hr
  have hM : 0 ≤ M := he0.trans heM
  have hem : 0 ≤ eps * M := mul_nonneg e0 hM
  obtain ⟨t0, t1⟩ := tol_bounds hr he hz
  unfold clipSideR
  by_cases hact : if n % 2 = 0 then (triMax p1 p2 p3).get (n / 2) > lo.get (n / 2) else (triMin p1 p2 p3).get (n / 2) < up.get (n / 2)
  · rw [if_pos hact]
    have hidx : (plane lo up n).index = n := rfl
    refine clipPlaneR_all (P := Known zt p1 p2 p3 lo up n e) ?_ ?_ ?_ hp
    · intro v hv hc
      refine hv.mono (by linarith) fun _ => ?_
      have := behind_neg hr t0 hc
      linarith
    · intro v hv hc
      have hd := on_near hr he hc
      have hle := le_abs_self (dist (plane lo up n) v.pt)
      have hk := hv.mono (e' := e + 24 * eps * M) (by linarith) fun _ => by linarith
      refine ⟨hk.hull, hk.side, fun k hkk => ?_⟩
      simp only [Vtx.set] at hkk
      split at hkk
      · rename_i hkn
        rw [hidx] at hkn
        subst hkn
        exact ⟨by omega, by show |dist (plane lo up k) v.pt| ≤ _; linarith⟩
      · exact hk.flag k hkk
    · intro a b ha hb2 hc
      have bound : ∀ v : Vtx ℚ, Known zt p1 p2 p3 lo up n e v → ∀ i, |v.pt.get i| ≤ 2 * M := by
        intro v hv i
        obtain ⟨q, hq, hd⟩ := hv.hull
        have b1 := triangle_within h1 h2 h3 hq i
        have b2 := hd i
        rw [abs_le] at *
        constructor <;> linarith
      have hop : (dist (plane lo up n) a.pt < 0 ∧ 0 < dist (plane lo up n) b.pt) ∨ (dist (plane lo up n) b.pt < 0 ∧ 0 < dist (plane lo up n) a.pt) := by
        rcases hc with ⟨c1, c2⟩ | ⟨c1, c2⟩
        · exact Or.inl ⟨behind_neg hr t0 c1, front_pos hr t0 c2⟩
        · exact Or.inr ⟨behind_neg hr t0 c2, front_pos hr t0 c1⟩
      obtain ⟨m, hm, ⟨s, s0, s1, hs⟩, hd, hf⟩ := crossing_near hr hb he fused hz (bound a ha) (bound b hb2) hop
      refine ⟨m, hm, ?_, ?_, ?_⟩
      · obtain ⟨qa, ta, da⟩ := ha.hull
        obtain ⟨qb, tb, db⟩ := hb2.hull
        refine ⟨lerp qa qb s, inTriangle_lerp s0 s1 ta tb, fun i => ?_⟩
        have g1 := hs i
        have g2 := da i
        have g3 := db i
        rw [get_lerp] at g1 ⊢
        have c := convex_combination (p := a.pt.get i - qa.get i) (q := b.pt.get i - qb.get i) s0 s1 (r := e)
        have c' := convex_combination (p := a.pt.get i - qa.get i) (q := b.pt.get i - qb.get i) s0 s1 (r := -e)
        rw [abs_le] at *
        have u1 := c.2.1 g2.2 g3.2
        have u2 := c'.1 g2.1 g3.1
        constructor <;> linarith
      · intro k hk hak
        rcases Nat.lt_succ_iff_lt_or_eq.1 hk with hlt | rfl
        · have d1 := ha.side k hlt hak
          have d2 := hb2.side k hlt hak
          have d3 := (convex_combination (p := dist (plane lo up k) a.pt) (q := dist (plane lo up k) b.pt) s0 s1 (r := 11 * zt + e)).2.1 d1 d2
          rw [← dist_lerp] at d3
          have d4 := (abs_le.1 (dist_diff (pl := plane lo up k) (hs _))).2
          linarith
        · have := le_abs_self (dist (plane lo up k) m.pt)
          linarith
      · intro k hk
        rcases hf k hk with hkn | ⟨f1, f2⟩
        · rw [hidx] at hkn
          subst hkn
          exact ⟨by omega, by linarith⟩
        · obtain ⟨l1, d1⟩ := ha.flag k f1
          obtain ⟨l2, d2⟩ := hb2.flag k f2
          refine ⟨by omega, ?_⟩
          have c := convex_combination (p := dist (plane lo up k) a.pt) (q := dist (plane lo up k) b.pt) s0 s1 (r := 11 * zt + e)
          have c' := convex_combination (p := dist (plane lo up k) a.pt) (q := dist (plane lo up k) b.pt) s0 s1 (r := -(11 * zt + e))
          have d4 := abs_le.1 (dist_diff (pl := plane lo up k) (hs _))
          rw [abs_le] at d1 d2 ⊢
          have u1 := c.2.1 d1.2 d2.2
          have u2 := c'.1 d1.1 d2.1
          rw [← dist_lerp] at u1 u2
          constructor <;> linarith
  · rw [if_neg hact]
    exact Or.inr ⟨poly, rfl, fun v hv => (hp v hv).mono (by linarith) fun ha => absurd ha hact⟩

theorem all_sides (hr : IsRounding rnd eps big) (hb : 1 ≤ big) (he : eps ≤ 1 / 1000) (fused : Bool) {zt M : ℚ} (hz : 0 ≤ zt) {p1 p2 p3 lo up : V3 ℚ} (h1 : Within M p1) (h2 : Within M p2)
    (h3 : Within M p3) (n : Nat) (hn : n ≤ 6) :
    (List.range n).foldlM (fun poly k => clipSideR rnd fused zt lo up (triMin p1 p2 p3) (triMax p1 p2 p3) k poly) [bare p1, bare p2, bare p3] = .error .capacity ∨
      ∃ out, (List.range n).foldlM (fun poly k => clipSideR rnd fused zt lo up (triMin p1 p2 p3) (triMax p1 p2 p3) k poly) [bare p1, bare p2, bare p3] = .ok out ∧
        ∀ v ∈ out, Known zt p1 p2 p3 lo up n (24 * n * eps * M) v := by
  have e0 := eps_nonneg hr
  have hM : 0 ≤ M := (abs_nonneg _).trans h1.1
  have hem : 0 ≤ eps * M := mul_nonneg e0 hM
  induction n with
  | zero =>
    refine Or.inr ⟨_, rfl, fun v hv => ?_⟩
    have start : ∀ p, InTriangle p1 p2 p3 p → Known zt p1 p2 p3 lo up 0 (24 * (0 : ℕ) * eps * M) (bare p) := fun p hp =>
      ⟨⟨p, hp, fun i => by simp [bare]⟩, fun k hk => absurd hk (Nat.not_lt_zero _), fun k hk => by simp [bare] at hk⟩
    simp only [List.mem_cons, List.not_mem_nil, or_false] at hv
    rcases hv with rfl | rfl | rfl
    · exact start _ ⟨1, 0, 0, by norm_num, le_rfl, le_rfl, by norm_num, by ring, by ring, by ring⟩
    · exact start _ ⟨0, 1, 0, le_rfl, by norm_num, le_rfl, by norm_num, by ring, by ring, by ring⟩
    · exact start _ ⟨0, 0, 1, le_rfl, le_rfl, by norm_num, by norm_num, by ring, by ring, by ring⟩
  | succ n ih =>
    rw [List.range_succ, List.foldlM_append]
    rcases ih (by omega) with h | ⟨out, h, ho⟩
    · rw [h]; exact Or.inl rfl
    · rw [h]
      have hen : 24 * (n : ℚ) * eps * M ≤ M := by
        have a1 : (n : ℚ) ≤ 6 := by exact_mod_cast (by omega : n ≤ 6)
        have a2 : (n : ℚ) * (eps * M) ≤ 6 * (eps * M) := mul_le_mul_of_nonneg_right a1 hem
        have a3 : eps * M ≤ 1 / 1000 * M := mul_le_mul_of_nonneg_right he hM
        have : 24 * (n : ℚ) * eps * M = 24 * (n * (eps * M)) := by ring
        rw [this]; linarith
      have hen0 : 0 ≤ 24 * (n : ℚ) * eps * M := by positivity
      have hnext := side_step hr hb he fused hz h1 h2 h3 hen0 hen ho
      have e1 : 24 * (n : ℚ) * eps * M + 24 * eps * M = 24 * (n + 1 : ℕ) * eps * M := by push_cast; ring
      rw [e1] at hnext
      rcases hnext with h' | ⟨o, h', ho'⟩
      · left
        show (clipSideR rnd fused zt lo up (triMin p1 p2 p3) (triMax p1 p2 p3) n out).bind (fun x => Except.ok x) = _
        rw [h']; rfl
      · right
        refine ⟨o, ?_, ho'⟩
        show (clipSideR rnd fused zt lo up (triMin p1 p2 p3) (triMax p1 p2 p3) n out).bind (fun x => Except.ok x) = _
        rw [h']; rfl

theorem clip_known (hr : IsRounding rnd eps big) (hb : 1 ≤ big) (he : eps ≤ 1 / 1000) (fused : Bool) {zt M : ℚ} (hz : 0 ≤ zt) {p1 p2 p3 lo up : V3 ℚ} (h1 : Within M p1) (h2 : Within M p2)
    (h3 : Within M p3) : clipTriangleR rnd fused zt p1 p2 p3 lo up = .error .capacity ∨ clipTriangleR rnd fused zt p1 p2 p3 lo up = .ok none ∨
      ∃ out, clipTriangleR rnd fused zt p1 p2 p3 lo up = .ok (some out) ∧ ∀ v ∈ out, Known zt p1 p2 p3 lo up 6 (144 * eps * M) v := by
  unfold clipTriangleR
  split
  · exact Or.inr (Or.inl rfl)
  · rcases all_sides hr hb he fused hz h1 h2 h3 6 le_rfl with h | ⟨out, h, ho⟩
    · rw [h]; exact Or.inl rfl
    · rw [h]
      refine Or.inr (Or.inr ⟨out, rfl, ?_⟩)
      have e : 24 * ((6 : ℕ) : ℚ) * eps * M = 144 * eps * M := by push_cast; ring
      rwa [e] at ho

/-- **C115** (errors).  For every machine arithmetic that keeps the order and has relative error at most 1/1000: clipping never throws "No valid intersection".  The full property says that clipping never
fails; that is false, see `C115_capacity_false_of_code`. -/
theorem C115_intersection_partial (hr : IsRounding rnd eps big) (hb : 1 ≤ big) (he : eps ≤ 1 / 1000) (fused : Bool) {zt : ℚ} (hz : 0 ≤ zt) (p1 p2 p3 lo up : V3 ℚ) :
    clipTriangleR rnd fused zt p1 p2 p3 lo up ≠ .error .noIntersection := by
  have hM : ∃ M, Within M p1 ∧ Within M p2 ∧ Within M p3 := by
    refine ⟨|p1.x| + |p1.y| + |p1.z| + |p2.x| + |p2.y| + |p2.z| + |p3.x| + |p3.y| + |p3.z|, ⟨?_, ?_, ?_⟩, ⟨?_, ?_, ?_⟩, ?_, ?_, ?_⟩ <;>
      linarith [abs_nonneg p1.x, abs_nonneg p1.y, abs_nonneg p1.z, abs_nonneg p2.x, abs_nonneg p2.y, abs_nonneg p2.z, abs_nonneg p3.x, abs_nonneg p3.y, abs_nonneg p3.z]
  obtain ⟨M, h1, h2, h3⟩ := hM
  rcases clip_known (lo := lo) (up := up) hr hb he fused hz h1 h2 h3 with h | h | ⟨o, h, _⟩ <;> rw [h] <;> simp

/-- **C115** (in the triangle).  If the coordinates of the triangle are at most `M`, every vertex of the result differs from a point of the triangle by at most `144 eps M` in each coordinate. -/
theorem C115_in_triangle (hr : IsRounding rnd eps big) (hb : 1 ≤ big) (he : eps ≤ 1 / 1000) (fused : Bool) {zt M : ℚ} (hz : 0 ≤ zt) {p1 p2 p3 lo up : V3 ℚ} (h1 : Within M p1) (h2 : Within M p2)
    (h3 : Within M p3) {p : List (Vtx ℚ)} (h : clipTriangleR rnd fused zt p1 p2 p3 lo up = .ok (some p)) :
    ∀ v ∈ p, ∃ q, InTriangle p1 p2 p3 q ∧ |v.pt.x - q.x| ≤ 144 * eps * M ∧ |v.pt.y - q.y| ≤ 144 * eps * M ∧ |v.pt.z - q.z| ≤ 144 * eps * M := by
  rcases clip_known (lo := lo) (up := up) hr hb he fused hz h1 h2 h3 with h' | h' | ⟨o, h', ho⟩
  · rw [h'] at h; cases h
  · rw [h'] at h; cases h
  · rw [h'] at h
    cases h
    intro v hv
    obtain ⟨q, hq, hd⟩ := (ho v hv).hull
    exact ⟨q, hq, hd 0, hd 1, hd 2⟩

/-- **C115** (in the box).  The result lies in the box up to eleven zero tolerances and `144 eps M`, provided that no direction has all corners on or beyond the same face (as in `C23_in_box_partial`;
without that the property is false already in exact arithmetic, `C23_false_of_code`). -/
theorem C115_in_box_partial (hr : IsRounding rnd eps big) (hb : 1 ≤ big) (he : eps ≤ 1 / 1000) (fused : Bool) {zt M : ℚ} (hz : 0 ≤ zt) {p1 p2 p3 lo up : V3 ℚ} (h1 : Within M p1) (h2 : Within M p2)
    (h3 : Within M p3) (hov : BoundsOverlap p1 p2 p3 lo up) {p : List (Vtx ℚ)} (h : clipTriangleR rnd fused zt p1 p2 p3 lo up = .ok (some p)) :
    ∀ v ∈ p, InBoxTol lo up (11 * zt + 144 * eps * M) v.pt := by
  rcases clip_known (lo := lo) (up := up) hr hb he fused hz h1 h2 h3 with h' | h' | ⟨o, h', ho⟩
  · rw [h'] at h; cases h
  · rw [h'] at h; cases h
  · rw [h'] at h
    cases h
    intro v hv
    have hd := fun k (hk : k < 6) => (ho v hv).side k hk (active_of_overlap hov k hk)
    have h0 := hd 0 (by omega)
    have h1 := hd 1 (by omega)
    have h2 := hd 2 (by omega)
    have h3 := hd 3 (by omega)
    have h4 := hd 4 (by omega)
    have h5 := hd 5 (by omega)
    simp [Clip.dist, plane, V3.get] at h0 h1 h2 h3 h4 h5
    exact ⟨⟨by linarith, by linarith⟩, ⟨by linarith, by linarith⟩, ⟨by linarith, by linarith⟩⟩

/-- **C115** (flags).  A flagged vertex lies on the face it is flagged for, up to the same tolerance. -/
theorem C115_flags (hr : IsRounding rnd eps big) (hb : 1 ≤ big) (he : eps ≤ 1 / 1000) (fused : Bool) {zt M : ℚ} (hz : 0 ≤ zt) {p1 p2 p3 lo up : V3 ℚ} (h1 : Within M p1) (h2 : Within M p2)
    (h3 : Within M p3) {p : List (Vtx ℚ)} (h : clipTriangleR rnd fused zt p1 p2 p3 lo up = .ok (some p)) :
    ∀ v ∈ p, ∀ k, v.on k = true → OnFace lo up (11 * zt + 144 * eps * M) k v.pt := by
  rcases clip_known (lo := lo) (up := up) hr hb he fused hz h1 h2 h3 with h' | h' | ⟨o, h', ho⟩
  · rw [h'] at h; cases h
  · rw [h'] at h; cases h
  · rw [h'] at h
    cases h
    intro v hv k hk
    obtain ⟨hlt, hd⟩ := (ho v hv).flag k hk
    have : k = 0 ∨ k = 1 ∨ k = 2 ∨ k = 3 ∨ k = 4 ∨ k = 5 := by omega
    rcases this with rfl | rfl | rfl | rfl | rfl | rfl <;> simp only [OnFace] <;> simp [Clip.dist, plane, V3.get] at hd <;> first | exact hd | (rw [abs_sub_comm]; exact hd)

end

/-- The zero tolerance of the code as a double. -/
def zeroTol : ℚ := binary64 (1 / 10 ^ 14)

theorem zeroTol_bounds : 0 ≤ zeroTol ∧ zeroTol ≤ 10001 / 10 ^ 18 := by
  unfold zeroTol
  constructor <;> decide +kernel

/-- **C115** (double precision).  With the tolerance of the code, triangles with coordinates up to `M` and boxes that they overlap: the vertices of the result are within `M 1.6e-14` of the triangle and
lie in the box up to `1.101e-13 + M 1.6e-14`. -/
theorem C115_binary64_partial (fused : Bool) {M : ℚ} {p1 p2 p3 lo up : V3 ℚ} (h1 : Within M p1) (h2 : Within M p2) (h3 : Within M p3) (hov : BoundsOverlap p1 p2 p3 lo up) {p : List (Vtx ℚ)}
    (h : clipTriangleR binary64 fused zeroTol p1 p2 p3 lo up = .ok (some p)) :
    ∀ v ∈ p, InBoxTol lo up (1101 / 10 ^ 16 + 16 / 10 ^ 15 * M) v.pt ∧
      ∃ q, InTriangle p1 p2 p3 q ∧ |v.pt.x - q.x| ≤ 16 / 10 ^ 15 * M ∧ |v.pt.y - q.y| ≤ 16 / 10 ^ 15 * M ∧ |v.pt.z - q.z| ≤ 16 / 10 ^ 15 * M := by
  have hM : 0 ≤ M := (abs_nonneg _).trans h1.1
  obtain ⟨z0, z1⟩ := zeroTol_bounds
  have hm : 144 * (1 / 2 ^ 53) * M ≤ 16 / 10 ^ 15 * M := mul_le_mul_of_nonneg_right (by norm_num) hM
  intro v hv
  obtain ⟨⟨a1, a2⟩, ⟨a3, a4⟩, ⟨a5, a6⟩⟩ := C115_in_box_partial binary64_isRounding (by norm_num) (by norm_num) fused z0 h1 h2 h3 hov h v hv
  obtain ⟨q, hq, b1, b2, b3⟩ := C115_in_triangle binary64_isRounding (by norm_num) (by norm_num) fused z0 h1 h2 h3 h v hv
  exact ⟨⟨⟨by linarith, by linarith⟩, ⟨by linarith, by linarith⟩, ⟨by linarith, by linarith⟩⟩, q, hq, by linarith, by linarith, by linarith⟩

/-- A check of the outcome. -/
def exceeds (o : Except ClipErr (Option (List (Vtx ℚ)))) : Bool := match o with | .error .capacity => true | _ => false

/-- A check of the outcome: the number of vertices. -/
def count (o : Except ClipErr (Option (List (Vtx ℚ)))) : Nat := match o with | .ok (some p) => p.length | _ => 0

/-- **C115** is false of the code where it says that clipping never fails: in double precision, with and without fused multiply-add, a triangle with coordinates up to 1032 is cut into a polygon with ten
vertices, and the error "Size of Polygon is exceeded" is thrown.  All numbers are doubles, the box has extents between 600 and 910, and in exact arithmetic the same triangle is clipped without an error
(`C22_capacity_partial`).  One corner is 1.2e-13 outside a face and 1.2e-13 inside another; the rounding of the point that replaces it takes it to the other side of the second face, and the polygon is no longer
convex. -/
theorem C115_capacity_false_of_code : ∃ p1 p2 p3 lo up : V3 ℚ,
    (∀ x ∈ [p1.x, p1.y, p1.z, p2.x, p2.y, p2.z, p3.x, p3.y, p3.z, lo.x, lo.y, lo.z, up.x, up.y, up.z], binary64 x = x) ∧ Within 1032 p1 ∧ Within 1032 p2 ∧ Within 1032 p3 ∧
    ProperBox ⟨lo, up⟩ ∧ BoundsOverlap p1 p2 p3 lo up ∧ (∀ fused, clipTriangleR binary64 fused zeroTol p1 p2 p3 lo up = .error .capacity) ∧ clipTriangle zeroTol p1 p2 p3 lo up ≠ .error := by
  refine ⟨⟨1032, 516, 1032⟩, ⟨-1 / 2 ^ 43, 0, 1 / 2 ^ 43⟩, ⟨258, -258, -1⟩, ⟨0, -387 / 2, 0⟩, ⟨903, 1677 / 4, 3483 / 4⟩, ?_, by norm_num [Within], by norm_num [Within, abs_le], by norm_num [Within],
    by norm_num [ProperBox], by norm_num [BoundsOverlap], ?_, (C22_capacity_partial _ zeroTol_bounds.1 _ _ _ _ _).1⟩
  · decide +kernel
  · have key : ∀ fused, exceeds (clipTriangleR binary64 fused zeroTol ⟨1032, 516, 1032⟩ ⟨-1 / 2 ^ 43, 0, 1 / 2 ^ 43⟩ ⟨258, -258, -1⟩ ⟨0, -387 / 2, 0⟩ ⟨903, 1677 / 4, 3483 / 4⟩) = true := by decide +kernel
    intro fused
    have := key fused
    unfold exceeds at this
    split at this
    · assumption
    · cases this

/-- The hypotheses are met: a triangle that all six faces of the unit box cut. -/
example : ∃ p, clipTriangleR binary64 false zeroTol ⟨2, -1 / 2, 1⟩ ⟨-1 / 2, 2, 1⟩ ⟨1 / 3, 1 / 3, -1⟩ ⟨0, 0, 0⟩ ⟨1, 1, 1 / 2⟩ = .ok (some p) ∧ 3 ≤ p.length ∧
    ∀ v ∈ p, InBoxTol ⟨0, 0, 0⟩ ⟨1, 1, 1 / 2⟩ (1101 / 10 ^ 16 + 16 / 10 ^ 15 * 2) v.pt := by
  have hc : 3 ≤ count (clipTriangleR binary64 false zeroTol ⟨2, -1 / 2, 1⟩ ⟨-1 / 2, 2, 1⟩ ⟨1 / 3, 1 / 3, -1⟩ ⟨0, 0, 0⟩ ⟨1, 1, 1 / 2⟩) := by decide +kernel
  unfold count at hc
  split at hc
  · rename_i p hp
    exact ⟨p, hp, hc, fun v hv => (C115_binary64_partial false (M := 2) (by norm_num [Within, abs_le]) (by norm_num [Within, abs_le]) (by norm_num [Within, abs_le]) (by norm_num [BoundsOverlap]) hp v hv).1⟩
  · cases hc

end QuESo.Props
