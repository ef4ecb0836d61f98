import Verif.Proofs.Turn
import Verif.Proofs.ClipperBox
import Mathlib.Tactic.LinearCombination
import Mathlib.Tactic.FieldSimp

/-!
# The triangles around the mean of a polygon cover it
-/
namespace QuESo.BRep
open QuESo.Spec
variable {K : Type _} [Field K] [LinearOrder K] [IsStrictOrderedRing K]

/-- Weights of points of a triangle can be summed. -/
theorem sum_inTriangle {p1 p2 p3 : V3 K} : ∀ l : List (V3 K), (∀ v ∈ l, InTriangle p1 p2 p3 v) →
    ∃ u v w : K, 0 ≤ u ∧ 0 ≤ v ∧ 0 ≤ w ∧ u + v + w = l.length ∧ (l.map V3.x).sum = u * p1.x + v * p2.x + w * p3.x ∧
      (l.map V3.y).sum = u * p1.y + v * p2.y + w * p3.y ∧ (l.map V3.z).sum = u * p1.z + v * p2.z + w * p3.z
  | [], _ => ⟨0, 0, 0, le_rfl, le_rfl, le_rfl, by simp, by simp, by simp, by simp⟩
  | q :: l, h => by
    obtain ⟨u, v, w, a1, a2, a3, a4, a5, a6, a7⟩ := sum_inTriangle l (fun x hx => h x (by simp [hx]))
    obtain ⟨u', v', w', b1, b2, b3, b4, b5, b6, b7⟩ := h q (by simp)
    refine ⟨u' + u, v' + v, w' + w, by linarith, by linarith, by linarith, ?_, ?_, ?_, ?_⟩
    · simp only [List.length_cons, Nat.cast_add, Nat.cast_one]; linarith
    · simp only [List.map_cons, List.sum_cons, a5, b5]; ring
    · simp only [List.map_cons, List.sum_cons, a6, b6]; ring
    · simp only [List.map_cons, List.sum_cons, a7, b7]; ring

theorem mean_inTriangle {l : List (V3 K)} (hl : l ≠ []) {p1 p2 p3 : V3 K} (h : ∀ v ∈ l, InTriangle p1 p2 p3 v) :
    InTriangle p1 p2 p3 (mean l) := by
  obtain ⟨u, v, w, a1, a2, a3, a4, a5, a6, a7⟩ := sum_inTriangle l h
  have h0 : (0 : K) < l.length := by
    have := List.length_pos_iff.2 hl
    exact_mod_cast this
  refine ⟨u / l.length, v / l.length, w / l.length, div_nonneg a1 h0.le, div_nonneg a2 h0.le, div_nonneg a3 h0.le, ?_, ?_, ?_, ?_⟩
  · rw [← add_div, ← add_div, a4, div_self h0.ne']
  · simp only [mean, sumV, a5]; ring
  · simp only [mean, sumV, a6]; ring
  · simp only [mean, sumV, a7]; ring

omit [LinearOrder K] [IsStrictOrderedRing K] in
theorem mem_cyclicPairs {α : Type _} {l : List α} {e : α × α} (h : e ∈ cyclicPairs l) : e.1 ∈ l ∧ e.2 ∈ l := by
  unfold cyclicPairs at h
  have := List.of_mem_zip h
  exact ⟨this.1, by simpa using this.2⟩

end QuESo.BRep

namespace QuESo.Clip
open QuESo.Cyc QuESo.Spec QuESo.BRep
variable {K : Type _} [Field K] [LinearOrder K] [IsStrictOrderedRing K]

/-- The orientation of three points seen along `n`. -/
def orient (n a b c : V3 K) : K :=
  n.x * (triangleArea2 a b c).x + n.y * (triangleArea2 a b c).y + n.z * (triangleArea2 a b c).z

theorem orient_isOrient (n : V3 K) : IsOrient (orient n) where
  rot a b c := by simp only [orient, triangleArea2]; ring
  same a b := by simp only [orient, triangleArea2]; ring

theorem orient_lerp (n a b c d : V3 K) (t : K) :
    orient n (lerp a b t) c d = (1 - t) * orient n a c d + t * orient n b c d := by
  simp only [orient, triangleArea2, lerp]; ring

theorem orient_mid (n a b : V3 K) {t : K} (h0 : 0 ≤ t) (h1 : t ≤ 1) : Mid (orient n) a b (lerp a b t) := by
  intro c d ha hb
  rw [orient_lerp]
  have := mul_nonneg (sub_nonneg.2 h1) ha
  have := mul_nonneg h0 hb
  linarith

theorem orient_vtx (n : V3 K) : IsOrient (fun a b c : Vtx K => orient n a.pt b.pt c.pt) where
  rot _ _ _ := (orient_isOrient n).rot _ _ _
  same _ _ := (orient_isOrient n).same _ _

/-- Clipping keeps the sense of turning. -/
theorem turn_cut {zt : K} (hz : 0 ≤ zt) (pl : Plane K) (n : V3 K) {l : List (Vtx K)}
    (h : Turn (fun a b c : Vtx K => orient n a.pt b.pt c.pt) l) :
    Turn (fun a b c : Vtx K => orient n a.pt b.pt c.pt) (cut zt pl l) := by
  refine Turn.clip (orient_vtx n) ?_ ?_ h
  · intro a b hA hB
    unfold entry
    split
    · intro c d _ hb; exact hb
    · rename_i h
      have hp := param_mem (opposite_of hz hA h).1
      intro c d ha hb
      exact orient_mid n a.pt b.pt hp.1 hp.2 c.pt d.pt ha hb
  · intro a b hA hB
    unfold exit
    split
    · intro c d ha _; exact ha
    · rename_i h
      have hp := param_mem (opposite_of hz hB h).2
      intro c d ha hb
      exact orient_mid n a.pt b.pt hp.1 hp.2 c.pt d.pt ha hb

/-- The clipped triangle turns as the triangle does. -/
theorem turn_final {zt : K} (hz : 0 ≤ zt) (p1 p2 p3 lo up : V3 K) :
    Turn (orient (triangleArea2 p1 p2 p3)) ((final zt lo up p1 p2 p3).map Vtx.pt) := by
  have key : Turn (fun a b c : Vtx K => orient (triangleArea2 p1 p2 p3) a.pt b.pt c.pt) (final zt lo up p1 p2 p3) := by
    refine final_forall _ ?_ ?_
    · intro a b c h
      have e := h.eq_of_length_le (by simp)
      simp only [List.cons.injEq, and_true] at e
      obtain ⟨rfl, rfl, rfl⟩ := e
      simp only [orient, bare]
      nlinarith [mul_self_nonneg (triangleArea2 p1 p2 p3).x, mul_self_nonneg (triangleArea2 p1 p2 p3).y,
        mul_self_nonneg (triangleArea2 p1 p2 p3).z]
    · intro k hk l h
      unfold stage
      split_ifs
      all_goals first
        | exact h
        | exact turn_cut hz _ _ h
  intro a b c h
  obtain ⟨l', h1, h2⟩ := List.sublist_map_iff.1 h
  match l', h2 with
  | [a', b', c'], h2 =>
    simp only [List.map_cons, List.map_nil, List.cons.injEq, and_true] at h2
    obtain ⟨rfl, rfl, rfl⟩ := h2
    exact key _ _ _ h1
  | [], h2 => simp at h2
  | [_], h2 => simp at h2
  | [_, _], h2 => simp at h2
  | _ :: _ :: _ :: _ :: _, h2 => simp at h2

/-! ## A sum of zero around a polygon -/

/-- If the values around a polygon add up to zero and are not all zero, they turn from not positive to positive along an edge. -/
theorem crossing_edge {α : Type _} (h : α → K) (l : List α) (hs : (l.map h).sum = 0) (hn : ∃ v ∈ l, h v ≠ 0) :
    ∃ a b, (a, b) ∈ l.zip (l.rotate 1) ∧ h a ≤ 0 ∧ 0 < h b := by
  by_contra hcon
  push Not at hcon
  have hlen : 0 < l.length := by obtain ⟨v, hv, -⟩ := hn; exact List.length_pos_of_mem hv
  have step : ∀ i (hi : i < l.length), 0 < h (l[(i + 1) % l.length]'(Nat.mod_lt _ hlen)) → 0 < h l[i] := by
    intro i hi hp
    by_contra hle
    rw [not_lt] at hle
    have hm : (l[i], l[(i + 1) % l.length]'(Nat.mod_lt _ hlen)) ∈ l.zip (l.rotate 1) := by
      have : (l.zip (l.rotate 1))[i]'(by simp [hi]) = (l[i], l[(i + 1) % l.length]'(Nat.mod_lt _ hlen)) := by
        simp [List.getElem_rotate]
      rw [← this]; exact List.getElem_mem _
    exact absurd hp (not_lt.2 (hcon _ _ hm hle))
  -- some value is positive
  have hpos : ∃ i, ∃ hi : i < l.length, 0 < h l[i] := by
    by_contra hno
    push Not at hno
    have hall : ∀ v ∈ l, h v ≤ 0 := by
      intro v hv
      obtain ⟨i, hi, rfl⟩ := List.getElem_of_mem hv
      exact hno i hi
    have : ∀ (l : List α), (∀ v ∈ l, h v ≤ 0) → (∃ v ∈ l, h v ≠ 0) → (l.map h).sum < 0 := by
      intro l
      induction l with
      | nil => rintro - ⟨v, hv, -⟩; simp at hv
      | cons a l ih =>
        intro h1 ⟨v, hv, hne⟩
        have hl : (l.map h).sum ≤ 0 := by
          have : ∀ (l : List α), (∀ v ∈ l, h v ≤ 0) → (l.map h).sum ≤ 0 := by
            intro l
            induction l with
            | nil => simp
            | cons a l ih => intro h1; simp only [List.map_cons, List.sum_cons]; linarith [h1 a (by simp), ih (fun v hv => h1 v (by simp [hv]))]
          exact this l (fun v hv => h1 v (by simp [hv]))
        simp only [List.map_cons, List.sum_cons]
        rcases List.mem_cons.1 hv with rfl | hv
        · have := lt_of_le_of_ne (h1 v (by simp)) hne
          linarith
        · have := ih (fun v hv => h1 v (by simp [hv])) ⟨v, hv, hne⟩
          linarith [h1 a (by simp)]
    exact absurd hs (ne_of_lt (this l hall hn))
  obtain ⟨i, hi, hp⟩ := hpos
  -- then all are
  have back : ∀ k, k ≤ i → ∃ hk : i - k < l.length, 0 < h l[i - k] := by
    intro k
    induction k with
    | zero => intro _; exact ⟨hi, hp⟩
    | succ k ih =>
      intro hk
      obtain ⟨h1, h2⟩ := ih (by omega)
      refine ⟨by omega, step _ (by omega) ?_⟩
      have e : (i - (k + 1) + 1) % l.length = i - k := by
        rw [show i - (k + 1) + 1 = i - k by omega]; exact Nat.mod_eq_of_lt h1
      simp only [e]; exact h2
  have h0 : (0 : K) < h (l[0]'hlen) := by
    obtain ⟨h1, h2⟩ := back i (le_refl _)
    simpa using h2
  have top : ∀ k, k < l.length → ∃ hk : l.length - 1 - k < l.length, 0 < h l[l.length - 1 - k] := by
    intro k
    induction k with
    | zero =>
      intro _
      refine ⟨by omega, step _ (by omega) ?_⟩
      have e : (l.length - 1 - 0 + 1) % l.length = 0 := by
        rw [show l.length - 1 - 0 + 1 = l.length by omega]; exact Nat.mod_self _
      simp only [e]; exact h0
    | succ k ih =>
      intro hk
      obtain ⟨h1, h2⟩ := ih (by omega)
      refine ⟨by omega, step _ (by omega) ?_⟩
      have e : (l.length - 1 - (k + 1) + 1) % l.length = l.length - 1 - k := by
        rw [show l.length - 1 - (k + 1) + 1 = l.length - 1 - k by omega]; exact Nat.mod_eq_of_lt h1
      simp only [e]; exact h2
  have hall : ∀ v ∈ l, 0 < h v := by
    intro v hv
    obtain ⟨j, hj, rfl⟩ := List.getElem_of_mem hv
    obtain ⟨h1, h2⟩ := top (l.length - 1 - j) (by omega)
    have e : l.length - 1 - (l.length - 1 - j) = j := by omega
    simpa [e] using h2
  have hsum : ∀ (l : List α), l ≠ [] → (∀ v ∈ l, 0 < h v) → 0 < (l.map h).sum := by
    intro l
    induction l with
    | nil => simp
    | cons a l ih =>
      intro _ h1
      simp only [List.map_cons, List.sum_cons]
      have ha := h1 a (by simp)
      by_cases hl : l = []
      · subst hl; simpa using ha
      · linarith [ih hl (fun v hv => h1 v (by simp [hv]))]
  exact absurd hs (ne_of_gt (hsum l (List.ne_nil_of_length_pos hlen) hall))

/-! ## Covering -/

/-- Barycentric coordinates in a plane seen along `n`. -/
theorem inTriangle_of_orient {n c a b q : V3 K}
    (hpl : ∀ v ∈ [c, a, b, q], n.x * (v.x - c.x) + n.y * (v.y - c.y) + n.z * (v.z - c.z) = 0)
    (hca : 0 ≤ orient n c a q) (hcb : 0 < orient n c q b) (hab : 0 ≤ orient n a b q) (hA : 0 < orient n c a b) :
    InTriangle a b c q := by
  have ha := hpl a (by simp)
  have hb := hpl b (by simp)
  have hq := hpl q (by simp)
  have hn : 0 < n.x * n.x + n.y * n.y + n.z * n.z := by
    rcases lt_or_eq_of_le (show 0 ≤ n.x * n.x + n.y * n.y + n.z * n.z by nlinarith [mul_self_nonneg n.x, mul_self_nonneg n.y, mul_self_nonneg n.z]) with h | h
    · exact h
    · exfalso
      have hx : n.x = 0 := by nlinarith [mul_self_nonneg n.x, mul_self_nonneg n.y, mul_self_nonneg n.z]
      have hy : n.y = 0 := by nlinarith [mul_self_nonneg n.x, mul_self_nonneg n.y, mul_self_nonneg n.z]
      have hz : n.z = 0 := by nlinarith [mul_self_nonneg n.x, mul_self_nonneg n.y, mul_self_nonneg n.z]
      simp [orient, hx, hy, hz] at hA
  -- the three differences are coplanar
  have hdet : (a.x - c.x) * ((b.y - c.y) * (q.z - c.z) - (b.z - c.z) * (q.y - c.y)) +
      (a.y - c.y) * ((b.z - c.z) * (q.x - c.x) - (b.x - c.x) * (q.z - c.z)) +
      (a.z - c.z) * ((b.x - c.x) * (q.y - c.y) - (b.y - c.y) * (q.x - c.x)) = 0 := by
    have : (n.x * n.x + n.y * n.y + n.z * n.z) * ((a.x - c.x) * ((b.y - c.y) * (q.z - c.z) - (b.z - c.z) * (q.y - c.y)) +
      (a.y - c.y) * ((b.z - c.z) * (q.x - c.x) - (b.x - c.x) * (q.z - c.z)) +
      (a.z - c.z) * ((b.x - c.x) * (q.y - c.y) - (b.y - c.y) * (q.x - c.x))) = 0 := by
      linear_combination (norm := (simp only [orient, triangleArea2]; ring)) (orient n c b q) * ha - (orient n c a q) * hb + (orient n c a b) * hq
    rcases mul_eq_zero.1 this with h | h
    · exact absurd h (ne_of_gt hn)
    · exact h
  have hsum : orient n c q b + orient n c a q + orient n a b q = orient n c a b := by
    simp only [orient, triangleArea2]; ring
  refine ⟨orient n c q b / orient n c a b, orient n c a q / orient n c a b, orient n a b q / orient n c a b,
    div_nonneg hcb.le hA.le, div_nonneg hca hA.le, div_nonneg hab hA.le, ?_, ?_, ?_, ?_⟩
  · rw [← add_div, ← add_div, hsum, div_self (ne_of_gt hA)]
  all_goals
    have hne := ne_of_gt hA
    rw [div_mul_eq_mul_div, div_mul_eq_mul_div, div_mul_eq_mul_div, ← add_div, ← add_div, eq_div_iff hne]
  · simp only [orient, triangleArea2]; linear_combination n.x * hdet
  · simp only [orient, triangleArea2]; linear_combination n.y * hdet
  · simp only [orient, triangleArea2]; linear_combination n.z * hdet

/-- Points on a line through the mean: the one in the hull is between the mean and a corner. -/
theorem covered_line {l : List (V3 K)} {c q : V3 K} (hl : l ≠ [])
    (hcr : ∀ v ∈ l, triangleArea2 c q v = ⟨0, 0, 0⟩) (hh : InHull l q) :
    ∃ v ∈ l, ∃ t, 0 ≤ t ∧ t ≤ 1 ∧ q = lerp c v t := by
  set d : V3 K := ⟨q.x - c.x, q.y - c.y, q.z - c.z⟩ with hd
  by_cases hz : d.x * d.x + d.y * d.y + d.z * d.z = 0
  · obtain ⟨v, hv⟩ := List.exists_mem_of_ne_nil l hl
    have hx : d.x = 0 := by nlinarith [mul_self_nonneg d.x, mul_self_nonneg d.y, mul_self_nonneg d.z]
    have hy : d.y = 0 := by nlinarith [mul_self_nonneg d.x, mul_self_nonneg d.y, mul_self_nonneg d.z]
    have hzz : d.z = 0 := by nlinarith [mul_self_nonneg d.x, mul_self_nonneg d.y, mul_self_nonneg d.z]
    refine ⟨v, hv, 0, le_refl _, zero_le_one, ?_⟩
    simp only [hd] at hx hy hzz
    cases q; cases c
    simp only [lerp, V3.mk.injEq] at *
    refine ⟨by linarith, by linarith, by linarith⟩
  · have hpos : 0 < d.x * d.x + d.y * d.y + d.z * d.z :=
      lt_of_le_of_ne (by nlinarith [mul_self_nonneg d.x, mul_self_nonneg d.y, mul_self_nonneg d.z]) (Ne.symm hz)
    have : ∃ v ∈ l, d.x * q.x + d.y * q.y + d.z * q.z ≤ d.x * v.x + d.y * v.y + d.z * v.z := by
      by_contra hno
      push Not at hno
      -- the largest value over the corners
      have hmax : ∃ m, m < d.x * q.x + d.y * q.y + d.z * q.z ∧ ∀ v ∈ l, d.x * v.x + d.y * v.y + d.z * v.z ≤ m := by
        clear hh hcr hl
        induction l with
        | nil => exact ⟨d.x * q.x + d.y * q.y + d.z * q.z - 1, by linarith, by simp⟩
        | cons a l ih =>
          obtain ⟨m, h1, h2⟩ := ih (fun v hv => hno v (by simp [hv]))
          refine ⟨max m (d.x * a.x + d.y * a.y + d.z * a.z), max_lt h1 (hno a (by simp)), ?_⟩
          intro v hv
          rcases List.mem_cons.1 hv with rfl | hv
          · exact le_max_right _ _
          · exact le_trans (h2 v hv) (le_max_left _ _)
      obtain ⟨m, h1, h2⟩ := hmax
      exact absurd (hh d m h2) (not_le.2 h1)
    obtain ⟨v, hv, hge⟩ := this
    have hc := hcr v hv
    simp only [triangleArea2, V3.mk.injEq] at hc
    obtain ⟨c1, c2, c3⟩ := hc
    set s := d.x * (v.x - c.x) + d.y * (v.y - c.y) + d.z * (v.z - c.z) with hs
    have hs1 : d.x * d.x + d.y * d.y + d.z * d.z ≤ s := by
      have e : d.x * d.x + d.y * d.y + d.z * d.z = d.x * q.x + d.y * q.y + d.z * q.z - (d.x * c.x + d.y * c.y + d.z * c.z) := by
        simp only [hd]; ring
      rw [e, hs]; linarith
    have hs0 : 0 < s := lt_of_lt_of_le hpos hs1
    refine ⟨v, hv, (d.x * d.x + d.y * d.y + d.z * d.z) / s, div_nonneg hpos.le hs0.le, (div_le_one hs0).2 hs1, ?_⟩
    have hsne := ne_of_gt hs0
    have par : ∀ {e f g : K}, s * e = (d.x * d.x + d.y * d.y + d.z * d.z) * f → g + (d.x * d.x + d.y * d.y + d.z * d.z) / s * f = g + e := by
      intro e f g h
      rw [div_mul_eq_mul_div, ← h, mul_div_cancel_left₀ _ hsne]
    have ex : s * (q.x - c.x) = (d.x * d.x + d.y * d.y + d.z * d.z) * (v.x - c.x) := by
      simp only [hs, hd]; linear_combination (q.y - c.y) * c3 - (q.z - c.z) * c2
    have ey : s * (q.y - c.y) = (d.x * d.x + d.y * d.y + d.z * d.z) * (v.y - c.y) := by
      simp only [hs, hd]; linear_combination (q.z - c.z) * c1 - (q.x - c.x) * c3
    have ez : s * (q.z - c.z) = (d.x * d.x + d.y * d.y + d.z * d.z) * (v.z - c.z) := by
      simp only [hs, hd]; linear_combination (q.x - c.x) * c2 - (q.y - c.y) * c1
    simp only [lerp]
    rw [par ex, par ey, par ez]
    simp

theorem inTriangle_plane {p1 p2 p3 c v : V3 K} (hc : InTriangle p1 p2 p3 c) (hv : InTriangle p1 p2 p3 v) :
    (triangleArea2 p1 p2 p3).x * (v.x - c.x) + (triangleArea2 p1 p2 p3).y * (v.y - c.y) +
      (triangleArea2 p1 p2 p3).z * (v.z - c.z) = 0 := by
  obtain ⟨u, v', w, -, -, -, hs, hx, hy, hz⟩ := hc
  obtain ⟨a, b, d, -, -, -, gs, gx, gy, gz⟩ := hv
  have e1 : u = 1 - v' - w := by linarith
  have e2 : a = 1 - b - d := by linarith
  simp only [triangleArea2, hx, hy, hz, gx, gy, gz, e1, e2]
  ring

/-- The area vectors of triangles in the triangle are multiples of its own. -/
theorem area_multiple {p1 p2 p3 c q v : V3 K} (hc : InTriangle p1 p2 p3 c) (hq : InTriangle p1 p2 p3 q)
    (hv : InTriangle p1 p2 p3 v) : ∃ k, triangleArea2 c q v =
      ⟨k * (triangleArea2 p1 p2 p3).x, k * (triangleArea2 p1 p2 p3).y, k * (triangleArea2 p1 p2 p3).z⟩ := by
  obtain ⟨u, v', w, -, -, -, hs, hx, hy, hz⟩ := hc
  obtain ⟨a, b, d, -, -, -, gs, gx, gy, gz⟩ := hv
  obtain ⟨a', b', d', -, -, -, ks, kx, ky, kz⟩ := hq
  have e1 : u = 1 - v' - w := by linarith
  have e2 : a = 1 - b - d := by linarith
  have e3 : a' = 1 - b' - d' := by linarith
  refine ⟨(b' - v') * (d - w) - (d' - w) * (b - v'), ?_⟩
  simp only [triangleArea2, hx, hy, hz, gx, gy, gz, kx, ky, kz, e1, e2, e3, V3.mk.injEq]
  refine ⟨by ring, by ring, by ring⟩

theorem orient_zero {p1 p2 p3 c q v : V3 K} (hc : InTriangle p1 p2 p3 c) (hq : InTriangle p1 p2 p3 q)
    (hv : InTriangle p1 p2 p3 v) (h : orient (triangleArea2 p1 p2 p3) c q v = 0) : triangleArea2 c q v = ⟨0, 0, 0⟩ := by
  obtain ⟨k, hk⟩ := area_multiple hc hq hv
  rw [orient, hk] at h
  rw [hk]
  generalize triangleArea2 p1 p2 p3 = n at *
  simp only at h
  have h' : k * (n.x * n.x + n.y * n.y + n.z * n.z) = 0 := by linarith
  rcases mul_eq_zero.1 h' with h0 | h0
  · simp [h0]
  · have hx : n.x = 0 := by nlinarith [mul_self_nonneg n.x, mul_self_nonneg n.y, mul_self_nonneg n.z]
    have hy : n.y = 0 := by nlinarith [mul_self_nonneg n.x, mul_self_nonneg n.y, mul_self_nonneg n.z]
    have hz : n.z = 0 := by nlinarith [mul_self_nonneg n.x, mul_self_nonneg n.y, mul_self_nonneg n.z]
    simp [hx, hy, hz]

omit [LinearOrder K] [IsStrictOrderedRing K] in
theorem sum_affine (l : List (V3 K)) (x y z d : K) :
    (l.map fun v => x * v.x + y * v.y + z * v.z + d).sum = x * (sumV l).x + y * (sumV l).y + z * (sumV l).z + l.length * d := by
  simp only [sumV]
  induction l with
  | nil => simp
  | cons a l ih => simp only [List.map_cons, List.sum_cons, ih, List.length_cons, Nat.cast_add, Nat.cast_one]; ring

/-- The values seen from the mean add up to zero. -/
theorem sum_orient (n q : V3 K) (l : List (V3 K)) (hl : l ≠ []) : (l.map (orient n (mean l) q)).sum = 0 := by
  have h0 : (l.length : K) ≠ 0 := by
    have := List.length_pos_iff.2 hl
    exact_mod_cast this.ne'
  set c := mean l with hc
  have e : (fun v => orient n c q v) = fun v : V3 K =>
      (n.y * (q.z - c.z) - n.z * (q.y - c.y)) * v.x + (n.z * (q.x - c.x) - n.x * (q.z - c.z)) * v.y +
        (n.x * (q.y - c.y) - n.y * (q.x - c.x)) * v.z + -((n.y * (q.z - c.z) - n.z * (q.y - c.y)) * c.x +
        (n.z * (q.x - c.x) - n.x * (q.z - c.z)) * c.y + (n.x * (q.y - c.y) - n.y * (q.x - c.x)) * c.z) := by
    funext v
    simp only [orient, triangleArea2]; ring
  show (l.map (fun v => orient n c q v)).sum = 0
  rw [e, sum_affine]
  have ex : (sumV l).x = l.length * c.x := by rw [hc]; simp only [mean]; rw [mul_div_cancel₀ _ h0]
  have ey : (sumV l).y = l.length * c.y := by rw [hc]; simp only [mean]; rw [mul_div_cancel₀ _ h0]
  have ez : (sumV l).z = l.length * c.z := by rw [hc]; simp only [mean]; rw [mul_div_cancel₀ _ h0]
  rw [ex, ey, ez]
  ring

/-- The triangles of the edges and the mean cover the polygon. -/
theorem fan_cover {l : List (V3 K)} {p1 p2 p3 q : V3 K} (hl : l ≠ []) (hin : ∀ v ∈ l, InTriangle p1 p2 p3 v)
    (ht : Turn (orient (triangleArea2 p1 p2 p3)) l) (hq : InTriangle p1 p2 p3 q) (hh : InHull l q) :
    ∃ e ∈ cyclicPairs l, InTriangle e.1 e.2 (mean l) q := by
  set n := triangleArea2 p1 p2 p3 with hn
  have hc := mean_inTriangle hl hin
  by_cases hz : ∀ v ∈ l, orient n (mean l) q v = 0
  · obtain ⟨v, hv, t, t0, t1, e⟩ := covered_line hl (fun v hv => orient_zero hc hq (hin v hv) (hz v hv)) hh
    obtain ⟨i, hi, rfl⟩ := List.getElem_of_mem hv
    have hlen : 0 < l.length := by omega
    refine ⟨(l[i], l[(i + 1) % l.length]'(Nat.mod_lt _ hlen)), ?_, ?_⟩
    · have : (l.zip (l.rotate 1))[i]'(by simp [hi]) = (l[i], l[(i + 1) % l.length]'(Nat.mod_lt _ hlen)) := by
        simp [List.getElem_rotate]
      unfold cyclicPairs
      rw [← this]; exact List.getElem_mem _
    · refine ⟨t, 0, 1 - t, t0, le_refl _, by linarith, by ring, ?_, ?_, ?_⟩ <;> rw [e] <;> simp only [lerp] <;> ring
  · push Not at hz
    obtain ⟨a, b, hab, ha, hb⟩ := crossing_edge (orient n (mean l) q) l (sum_orient n q l hl) hz
    refine ⟨(a, b), hab, ?_⟩
    have hm := mem_cyclicPairs (l := l) (e := (a, b)) hab
    have hside : ∀ v, InHull l v → 0 ≤ orient n a b v := by
      intro v hv
      have e : ∀ v : V3 K, orient n a b v = -(((n.z * (b.y - a.y) - n.y * (b.z - a.z)) * v.x + (n.x * (b.z - a.z) - n.z * (b.x - a.x)) * v.y +
          (n.y * (b.x - a.x) - n.x * (b.y - a.y)) * v.z) - ((n.z * (b.y - a.y) - n.y * (b.z - a.z)) * a.x +
          (n.x * (b.z - a.z) - n.z * (b.x - a.x)) * a.y + (n.y * (b.x - a.x) - n.x * (b.y - a.y)) * a.z)) := by
        intro v
        simp only [orient, triangleArea2]; ring
      have := hv ⟨n.z * (b.y - a.y) - n.y * (b.z - a.z), n.x * (b.z - a.z) - n.z * (b.x - a.x), n.y * (b.x - a.x) - n.x * (b.y - a.y)⟩
        ((n.z * (b.y - a.y) - n.y * (b.z - a.z)) * a.x + (n.x * (b.z - a.z) - n.z * (b.x - a.x)) * a.y + (n.y * (b.x - a.x) - n.x * (b.y - a.y)) * a.z)
        (by
          intro w hw
          have := ht.edge (orient_isOrient n) hab hw
          rw [e] at this
          simp only
          linarith)
      rw [e]
      simp only at this
      linarith
    have hqs := hside q hh
    have hca : 0 ≤ orient n (mean l) a q := by
      have : orient n (mean l) a q = -orient n (mean l) q a := by simp only [orient, triangleArea2]; ring
      rw [this]; linarith
    refine inTriangle_of_orient (n := n) ?_ hca hb hqs ?_
    · intro v hv
      simp only [List.mem_cons, List.not_mem_nil, or_false] at hv
      rcases hv with rfl | rfl | rfl | rfl
      · ring
      · exact inTriangle_plane hc (hin _ hm.1)
      · exact inTriangle_plane hc (hin _ hm.2)
      · exact inTriangle_plane hc hq
    · have hsum : orient n (mean l) q b + orient n (mean l) a q + orient n a b q = orient n (mean l) a b := by
        simp only [orient, triangleArea2]; ring
      linarith

/-- The triangles a polygon is split into cover it. -/
theorem triangulation_cover {l : List (V3 K)} {p1 p2 p3 q : V3 K} (hl : 3 ≤ l.length) (hin : ∀ v ∈ l, InTriangle p1 p2 p3 v)
    (ht : Turn (orient (triangleArea2 p1 p2 p3)) l) (hq : InTriangle p1 p2 p3 q) (hh : InHull l q) (m : V3 K) :
    ∃ t ∈ triangulation l m, InTriangle t.p1 t.p2 t.p3 q := by
  obtain ⟨e, he, hi⟩ := fan_cover (by intro h; subst h; simp at hl) hin ht hq hh
  match l, hl with
  | [a, b, c], _ =>
    refine ⟨⟨a, b, c, m⟩, by simp [triangulation], ?_⟩
    have hm := mem_cyclicPairs he
    have ina : InTriangle a b c a := ⟨1, 0, 0, by simp, le_refl _, le_refl _, by ring, by ring, by ring, by ring⟩
    have inb : InTriangle a b c b := ⟨0, 1, 0, le_refl _, by simp, le_refl _, by ring, by ring, by ring, by ring⟩
    have inc : InTriangle a b c c := ⟨0, 0, 1, le_refl _, le_refl _, by simp, by ring, by ring, by ring, by ring⟩
    have hall : ∀ v ∈ [a, b, c], InTriangle a b c v := by
      intro v hv
      simp only [List.mem_cons, List.not_mem_nil, or_false] at hv
      rcases hv with rfl | rfl | rfl <;> assumption
    have hmm := mean_inTriangle (by simp) hall
    obtain ⟨u1, v1, w1, a1, a2, a3, a4, ax, ay, az⟩ := hall _ hm.1
    obtain ⟨u2, v2, w2, b1, b2, b3, b4, bx, by', bz⟩ := hall _ hm.2
    obtain ⟨u3, v3, w3, c1, c2, c3, c4, cx, cy, cz⟩ := hmm
    obtain ⟨u, v, w, d1, d2, d3, d4, dx, dy, dz⟩ := hi
    refine ⟨u * u1 + v * u2 + w * u3, u * v1 + v * v2 + w * v3, u * w1 + v * w2 + w * w3, by positivity, by positivity, by positivity, ?_, ?_, ?_, ?_⟩
    · linear_combination u * a4 + v * b4 + w * c4 + d4
    · rw [dx, ax, bx, cx]; ring
    · rw [dy, ay, by', cy]; ring
    · rw [dz, az, bz, cz]; ring
  | a :: b :: c :: d :: l, _ =>
    refine ⟨⟨e.1, e.2, mean (a :: b :: c :: d :: l), m⟩, ?_, hi⟩
    simp only [triangulation, List.mem_map]
    exact ⟨e, he, rfl⟩

/-! ## No overlaps -/

theorem turn_area {l : List (V3 K)} {n : V3 K} (hl : l ≠ []) (ht : Turn (orient n) l) {a b : V3 K} (hab : (a, b) ∈ cyclicPairs l) :
    0 ≤ orient n a b (mean l) := by
  have h0 : (0 : K) < l.length := by
    have := List.length_pos_iff.2 hl
    exact_mod_cast this
  have hs : ∀ (r : List (V3 K)), (∀ v ∈ r, 0 ≤ orient n a b v) → 0 ≤ (r.map (orient n a b)).sum := by
    intro r
    induction r with
    | nil => simp
    | cons x r ih =>
      intro h
      simp only [List.map_cons, List.sum_cons]
      exact add_nonneg (h x (by simp)) (ih (fun v hv => h v (by simp [hv])))
  have hsum := hs l (fun v hv => ht.edge (orient_isOrient n) hab hv)
  have e : (fun v => orient n a b v) = fun v : V3 K =>
      (n.y * (b.z - a.z) - n.z * (b.y - a.y)) * v.x + (n.z * (b.x - a.x) - n.x * (b.z - a.z)) * v.y +
        (n.x * (b.y - a.y) - n.y * (b.x - a.x)) * v.z + -((n.y * (b.z - a.z) - n.z * (b.y - a.y)) * a.x +
        (n.z * (b.x - a.x) - n.x * (b.z - a.z)) * a.y + (n.x * (b.y - a.y) - n.y * (b.x - a.x)) * a.z) := by
    funext v
    simp only [orient, triangleArea2]; ring
  have hsum' : 0 ≤ (l.map (fun v => orient n a b v)).sum := hsum
  rw [e, sum_affine] at hsum'
  have e2 : orient n a b (mean l) = ((n.y * (b.z - a.z) - n.z * (b.y - a.y)) * (sumV l).x + (n.z * (b.x - a.x) - n.x * (b.z - a.z)) * (sumV l).y +
        (n.x * (b.y - a.y) - n.y * (b.x - a.x)) * (sumV l).z + l.length * -((n.y * (b.z - a.z) - n.z * (b.y - a.y)) * a.x +
        (n.z * (b.x - a.x) - n.x * (b.z - a.z)) * a.y + (n.x * (b.y - a.y) - n.y * (b.x - a.x)) * a.z)) / l.length := by
    have := congrFun e (mean l)
    rw [this]
    simp only [mean]
    field_simp
  rw [e2]
  exact div_nonneg hsum' h0.le

/-- A point strictly inside the triangle of an edge and the mean: seen from the mean through the point, the edge changes sides. -/
theorem inside_up {p1 p2 p3 a b c q : V3 K} (ha : InTriangle p1 p2 p3 a) (hb : InTriangle p1 p2 p3 b) (hc : InTriangle p1 p2 p3 c)
    (ho : 0 ≤ orient (triangleArea2 p1 p2 p3) a b c) (h : Inside a b c q) :
    orient (triangleArea2 p1 p2 p3) c q a < 0 ∧ 0 < orient (triangleArea2 p1 p2 p3) c q b := by
  obtain ⟨hne, u, v, w, hu, hv, hw, hs, hx, hy, hz⟩ := h
  have hpos : 0 < orient (triangleArea2 p1 p2 p3) a b c :=
    lt_of_le_of_ne ho (fun h0 => hne (orient_zero ha hb hc h0.symm))
  generalize triangleArea2 p1 p2 p3 = n at *
  have e1 : orient n c q a = -(v * orient n a b c) := by
    have e : w = 1 - u - v := by linarith
    simp only [orient, triangleArea2, hx, hy, hz, e]; ring
  have e2 : orient n c q b = u * orient n a b c := by
    have e : w = 1 - u - v := by linarith
    simp only [orient, triangleArea2, hx, hy, hz, e]; ring
  rw [e1, e2]
  have := mul_pos hu hpos
  have := mul_pos hv hpos
  exact ⟨by linarith, by linarith⟩

/-- The label of the side of a plane is convex. -/
theorem label_orient (n c q : V3 K) : ConvexLabel fun v => decide (0 < orient n c q v) := by
  intro a b t h0 h1 hab
  have e : orient n c q (lerp a b t) = (1 - t) * orient n c q a + t * orient n c q b := by
    simp only [orient, triangleArea2, lerp]; ring
  simp only [decide_eq_decide] at hab ⊢
  rw [e]
  constructor
  · intro h
    by_contra ha
    have hb := hab.not.1 ha
    rw [not_lt] at ha hb
    have := mul_nonneg_of_nonpos_of_nonpos (by linarith : -(1 - t) ≤ 0) ha
    have := mul_nonneg_of_nonpos_of_nonpos (by linarith : -t ≤ 0) hb
    linarith
  · intro ha
    have hb := hab.1 ha
    rcases eq_or_lt_of_le h0 with rfl | h0
    · simpa using ha
    · have := mul_pos h0 hb
      have := mul_nonneg (sub_nonneg.2 h1) ha.le
      linarith

/-- The triangles a polygon is split into do not overlap. -/
theorem triangulation_disjoint {p : List (Vtx K)} {p1 p2 p3 : V3 K} (hc : ConvexPoly p) (hin : ∀ v ∈ p, InTriangle p1 p2 p3 v.pt)
    (ht : Turn (orient (triangleArea2 p1 p2 p3)) (p.map Vtx.pt)) (m : V3 K) :
    (triangulation (p.map Vtx.pt) m).Pairwise fun s t => ¬ ∃ q, Inside s.p1 s.p2 s.p3 q ∧ Inside t.p1 t.p2 t.p3 q := by
  have key : ∀ l : List (V3 K), l = p.map Vtx.pt → l ≠ [] → ((cyclicPairs l).map fun e => (⟨e.1, e.2, mean l, m⟩ : Tri K)).Pairwise
      fun s t => ¬ ∃ q, Inside s.p1 s.p2 s.p3 q ∧ Inside t.p1 t.p2 t.p3 q := by
    intro l el hl
    rw [← el] at ht
    have hin' : ∀ v ∈ l, InTriangle p1 p2 p3 v := by
      rw [el]; simp only [List.mem_map]; rintro _ ⟨v, hv, rfl⟩; exact hin v hv
    rw [List.pairwise_map, List.pairwise_iff_getElem]
    rintro i j hi hj hij ⟨q, h1, h2⟩
    have hmi := List.getElem_mem hi
    have hmj := List.getElem_mem hj
    have hmean := mean_inTriangle hl hin'
    have step : ∀ e ∈ cyclicPairs l, Inside e.1 e.2 (mean l) q → up (fun v => decide (0 < orient (triangleArea2 p1 p2 p3) (mean l) q v)) e = true := by
      intro e he h
      have hm := mem_cyclicPairs he
      have := inside_up (hin' _ hm.1) (hin' _ hm.2) hmean (turn_area hl ht he) h
      simp only [up, Bool.and_eq_true, Bool.not_eq_eq_eq_not, Bool.not_true, decide_eq_false_iff_not, decide_eq_true_eq, not_lt]
      exact ⟨this.1.le, this.2⟩
    have hcyc : cyc (fun v => decide (0 < orient (triangleArea2 p1 p2 p3) (mean l) q v)) l ≤ 2 := by
      rw [el]
      have := hc _ (label_orient (triangleArea2 p1 p2 p3) (mean l) q)
      rw [cyc_up] at this ⊢
      rw [← List.map_rotate, List.zip_map, List.countP_map, ← el]
      exact this
    rw [cyc_up] at hcyc
    have hpw := pairwise_of_countP (up fun v => decide (0 < orient (triangleArea2 p1 p2 p3) (mean l) q v)) (l.zip (l.rotate 1)) (by omega)
    exact List.pairwise_iff_getElem.1 hpw i j hi hj hij ⟨step _ hmi h1, step _ hmj h2⟩
  have hk := key _ rfl
  generalize p.map Vtx.pt = l at *
  match l with
  | [] => exact List.Pairwise.nil
  | [_] => exact List.Pairwise.nil
  | [_, _] => exact List.Pairwise.nil
  | [a, b, c] => exact List.pairwise_singleton _ _
  | a :: b :: c :: d :: l => exact hk (by simp)

/-- The triangles a polygon is split into have the orientation of the polygon. -/
theorem triangulation_area {l : List (V3 K)} {p1 p2 p3 : V3 K} (hin : ∀ v ∈ l, InTriangle p1 p2 p3 v)
    (ht : Turn (orient (triangleArea2 p1 p2 p3)) l) (m : V3 K) :
    ∀ t ∈ triangulation l m, ∃ k, 0 ≤ k ∧ triangleArea2 t.p1 t.p2 t.p3 =
      ⟨k * (triangleArea2 p1 p2 p3).x, k * (triangleArea2 p1 p2 p3).y, k * (triangleArea2 p1 p2 p3).z⟩ := by
  have key : ∀ {a b c : V3 K}, InTriangle p1 p2 p3 a → InTriangle p1 p2 p3 b → InTriangle p1 p2 p3 c →
      0 ≤ orient (triangleArea2 p1 p2 p3) a b c → ∃ k, 0 ≤ k ∧ triangleArea2 a b c =
      ⟨k * (triangleArea2 p1 p2 p3).x, k * (triangleArea2 p1 p2 p3).y, k * (triangleArea2 p1 p2 p3).z⟩ := by
    intro a b c ha hb hc ho
    obtain ⟨k, hk⟩ := area_multiple ha hb hc
    rw [orient, hk] at ho
    generalize triangleArea2 p1 p2 p3 = n at *
    simp only at ho
    by_cases h0 : n.x * n.x + n.y * n.y + n.z * n.z = 0
    · have hx : n.x = 0 := by nlinarith [mul_self_nonneg n.x, mul_self_nonneg n.y, mul_self_nonneg n.z]
      have hy : n.y = 0 := by nlinarith [mul_self_nonneg n.x, mul_self_nonneg n.y, mul_self_nonneg n.z]
      have hz : n.z = 0 := by nlinarith [mul_self_nonneg n.x, mul_self_nonneg n.y, mul_self_nonneg n.z]
      exact ⟨0, le_refl _, by rw [hk]; simp [hx, hy, hz]⟩
    · refine ⟨k, ?_, hk⟩
      have hpos : 0 < n.x * n.x + n.y * n.y + n.z * n.z :=
        lt_of_le_of_ne (by nlinarith [mul_self_nonneg n.x, mul_self_nonneg n.y, mul_self_nonneg n.z]) (Ne.symm h0)
      have : 0 ≤ k * (n.x * n.x + n.y * n.y + n.z * n.z) := by linarith
      exact nonneg_of_mul_nonneg_left this hpos
  intro t htm
  match l, htm with
  | [], htm => simp [triangulation] at htm
  | [_], htm => simp [triangulation] at htm
  | [_, _], htm => simp [triangulation] at htm
  | [a, b, c], htm =>
    simp only [triangulation, List.mem_singleton] at htm
    subst htm
    exact key (hin a (by simp)) (hin b (by simp)) (hin c (by simp)) (ht a b c (List.Sublist.refl _))
  | a :: b :: c :: d :: l, htm =>
    simp only [triangulation, List.mem_map] at htm
    obtain ⟨e, he, rfl⟩ := htm
    have hm := mem_cyclicPairs he
    exact key (hin _ hm.1) (hin _ hm.2) (mean_inTriangle (by simp) hin) (turn_area (by simp) ht he)

end QuESo.Clip
