import Verif.Proofs.FloodFill
import Verif.Proofs.GridBoxes
import Mathlib.Tactic.Linarith

/-! # A geometry that tests boxes exactly answers alike from both sides of a face -/
namespace QuESo.Flood
open QuESo.Grid QuESo.Spec
variable {K : Type _} [Field K] [LinearOrder K] [IsStrictOrderedRing K]

theorem tol_bounds {a b c s t M : K} (ht0 : 0 < t) (ht : t ≤ 1 / 10) (hs : s = max (max a (max b c) * t) t)
    (hM : M = max a (max b c)) {a' b' c' : K} (ha : a ≤ a') (hb : b ≤ b') (hc : c ≤ c')
    (ha' : a' ≤ a + 10 * s) (hb' : b' ≤ b + 10 * s) (hc' : c' ≤ c + 10 * s) :
    s ≤ max (max a' (max b' c') * t) t ∧ max (max a' (max b' c') * t) t ≤ 2 * s ∧ 0 < s := by
  have hsp : t ≤ s := by rw [hs]; exact le_max_right _ _
  have hs0 : 0 < s := lt_of_lt_of_le ht0 hsp
  have hMs : max a (max b c) * t ≤ s := by rw [hs]; exact le_max_left _ _
  refine ⟨?_, ?_, hs0⟩
  · rw [hs]
    exact max_le_max (mul_le_mul_of_nonneg_right (max_le_max ha (max_le_max hb hc)) ht0.le) (le_refl _)
  · refine max_le ?_ (by linarith)
    have h1 : max a' (max b' c') ≤ max a (max b c) + 10 * s := by
      refine max_le (ha'.trans ?_) (max_le (hb'.trans ?_) (hc'.trans ?_))
      · have := le_max_left a (max b c); linarith
      · have := (le_max_left b c).trans (le_max_right a (max b c)); linarith
      · have := (le_max_right b c).trans (le_max_right a (max b c)); linarith
    have h2 : max a' (max b' c') * t ≤ (max a (max b c) + 10 * s) * t := mul_le_mul_of_nonneg_right h1 ht0.le
    have h3 : s * t ≤ s * (1 / 10) := mul_le_mul_of_nonneg_left ht hs0.le
    linarith

/-- One axis: the surface point meets the perturbed box on one side iff on the other. -/
theorem axis_iff {L f U s s' tol q : K} (hs : s ≤ s') (hs2 : s' ≤ 2 * s) (hs0 : 0 < s) (ht : tol = 10 * s)
    (hw1 : tol ≤ f - L) (hw2 : tol ≤ U - f)
    (hi : ¬ (L + s ≤ q ∧ q ≤ f - s)) (hj : ¬ (f + s ≤ q ∧ q ≤ U - s)) :
    (f - tol + s' ≤ q ∧ q ≤ U - s') ↔ (L + s' ≤ q ∧ q ≤ f + tol - s') := by
  constructor
  · rintro ⟨h1, h2⟩
    have a : q < f + s := by
      by_contra hc
      push Not at hc
      exact hj ⟨hc, by linarith⟩
    have b : f - s < q := by
      by_contra hc
      push Not at hc
      exact hi ⟨by linarith, hc⟩
    exact ⟨by linarith, by linarith⟩
  · rintro ⟨h1, h2⟩
    have b : f - s < q := by
      by_contra hc
      push Not at hc
      exact hi ⟨by linarith, hc⟩
    have a : q < f + s := by
      by_contra hc
      push Not at hc
      exact hj ⟨hc, by linarith⟩
    exact ⟨by linarith, by linarith⟩

theorem cell_delta {n : V3 Nat} {dom : Box K} (v : V3 Nat) :
    (cellBox n dom v).upper.x - (cellBox n dom v).lower.x = delta dom.lower.x dom.upper.x n.x ∧
    (cellBox n dom v).upper.y - (cellBox n dom v).lower.y = delta dom.lower.y dom.upper.y n.y ∧
    (cellBox n dom v).upper.z - (cellBox n dom v).lower.z = delta dom.lower.z dom.upper.z n.z := by
  refine ⟨?_, ?_, ?_⟩ <;> simp only [cellBox] <;> ring

theorem sym_forward {S : V3 K → Prop} {t : K} {isT : Box K → Bool} (hE : ExactTrimTest S t isT) (ht0 : 0 < t)
    (ht : t ≤ 1 / 10) {n : V3 Nat} {dom : Box K}
    (hx : offsetTol n dom t ≤ delta dom.lower.x dom.upper.x n.x)
    (hy : offsetTol n dom t ≤ delta dom.lower.y dom.upper.y n.y)
    (hz : offsetTol n dom t ≤ delta dom.lower.z dom.upper.z n.z)
    {v w : V3 Nat} {d : Dir} (hd : d = .xf ∨ d = .yf ∨ d = .zf) (hnb : Neighbour d v w)
    (hv : isT (cellBox n dom v) = false) (hw : isT (cellBox n dom w) = false) :
    isT (perturb (offsetTol n dom t) d (cellBox n dom w)) =
      isT (perturb (offsetTol n dom t) (reverse d) (cellBox n dom v)) := by
  obtain ⟨dvx, dvy, dvz⟩ := cell_delta (n := n) (dom := dom) v
  obtain ⟨dwx, dwy, dwz⟩ := cell_delta (n := n) (dom := dom) w
  set s := relSnap ⟨delta dom.lower.x dom.upper.x n.x, delta dom.lower.y dom.upper.y n.y,
    delta dom.lower.z dom.upper.z n.z⟩ t with hs
  have htol : offsetTol n dom t = 10 * s := rfl
  have hsv : boxTolerance t (cellBox n dom v) = s := by
    unfold boxTolerance; rw [dvx, dvy, dvz]; rfl
  have hsw : boxTolerance t (cellBox n dom w) = s := by
    unfold boxTolerance; rw [dwx, dwy, dwz]; rfl
  have hv' : ∀ q, S q → ¬ InShrunkBox s (cellBox n dom v) q := by
    intro q hq hin
    have := (hE _).2 ⟨q, hq, by rw [hsv]; exact hin⟩
    rw [hv] at this; cases this
  have hw' : ∀ q, S q → ¬ InShrunkBox s (cellBox n dom w) q := by
    intro q hq hin
    have := (hE _).2 ⟨q, hq, by rw [hsw]; exact hin⟩
    rw [hw] at this; cases this
  have hspos : 0 < s := lt_of_lt_of_le ht0 (le_max_right _ _)
  rw [Bool.eq_iff_iff, hE, hE]
  rw [htol] at hx hy hz ⊢
  rcases hd with rfl | rfl | rfl
  · obtain ⟨e1, e2, e3⟩ := hnb
    have f1 : (cellBox n dom w).lower.x = (cellBox n dom v).upper.x := by simp only [cellBox, e1]; push_cast; ring
    have f2 : (cellBox n dom w).lower.y = (cellBox n dom v).lower.y := by simp only [cellBox, e2]
    have f3 : (cellBox n dom w).lower.z = (cellBox n dom v).lower.z := by simp only [cellBox, e3]
    have f4 : (cellBox n dom w).upper.y = (cellBox n dom v).upper.y := by simp only [cellBox, e2]
    have f5 : (cellBox n dom w).upper.z = (cellBox n dom v).upper.z := by simp only [cellBox, e3]
    obtain ⟨b1, b2, b3⟩ := tol_bounds (s := s) ht0 ht hs rfl
      (a' := delta dom.lower.x dom.upper.x n.x + 10 * s) (b' := delta dom.lower.y dom.upper.y n.y)
      (c' := delta dom.lower.z dom.upper.z n.z) (by linarith) (le_refl _) (le_refl _) (le_refl _) (by linarith) (by linarith)
    set s' := max (max (delta dom.lower.x dom.upper.x n.x + 10 * s) (max (delta dom.lower.y dom.upper.y n.y)
      (delta dom.lower.z dom.upper.z n.z)) * t) t with hs'
    have hpw : boxTolerance t (perturb (10 * s) .xf (cellBox n dom w)) = s' := by
      unfold boxTolerance perturb
      simp only
      rw [dwy, dwz, show (cellBox n dom w).upper.x - ((cellBox n dom w).lower.x - 10 * s) = delta dom.lower.x dom.upper.x n.x + 10 * s by linarith]
    have hpv : boxTolerance t (perturb (10 * s) (reverse .xf) (cellBox n dom v)) = s' := by
      unfold boxTolerance perturb reverse
      simp only
      rw [dvy, dvz, show (cellBox n dom v).upper.x + 10 * s - (cellBox n dom v).lower.x = delta dom.lower.x dom.upper.x n.x + 10 * s by linarith]
    rw [hpw, hpv]
    refine exists_congr fun q => and_congr_right fun hq => ?_
    have h1 := hv' q hq
    have h2 := hw' q hq
    simp only [InShrunkBox, perturb, reverse, f1, f2, f3, f4, f5] at h1 h2 ⊢
    constructor
    · rintro ⟨hX, hY, hZ⟩
      exact ⟨(axis_iff b1 b2 b3 rfl (by linarith) (by linarith) (fun hc => h1 ⟨hc, by constructor <;> linarith [hY.1, hY.2], by constructor <;> linarith [hZ.1, hZ.2]⟩)
        (fun hc => h2 ⟨hc, by constructor <;> linarith [hY.1, hY.2], by constructor <;> linarith [hZ.1, hZ.2]⟩)).1 hX, hY, hZ⟩
    · rintro ⟨hX, hY, hZ⟩
      exact ⟨(axis_iff b1 b2 b3 rfl (by linarith) (by linarith) (fun hc => h1 ⟨hc, by constructor <;> linarith [hY.1, hY.2], by constructor <;> linarith [hZ.1, hZ.2]⟩)
        (fun hc => h2 ⟨hc, by constructor <;> linarith [hY.1, hY.2], by constructor <;> linarith [hZ.1, hZ.2]⟩)).2 hX, hY, hZ⟩
  · obtain ⟨e1, e2, e3⟩ := hnb
    have f1 : (cellBox n dom w).lower.y = (cellBox n dom v).upper.y := by simp only [cellBox, e1]; push_cast; ring
    have f2 : (cellBox n dom w).lower.x = (cellBox n dom v).lower.x := by simp only [cellBox, e2]
    have f3 : (cellBox n dom w).lower.z = (cellBox n dom v).lower.z := by simp only [cellBox, e3]
    have f4 : (cellBox n dom w).upper.x = (cellBox n dom v).upper.x := by simp only [cellBox, e2]
    have f5 : (cellBox n dom w).upper.z = (cellBox n dom v).upper.z := by simp only [cellBox, e3]
    obtain ⟨b1, b2, b3⟩ := tol_bounds (s := s) ht0 ht hs rfl
      (a' := delta dom.lower.x dom.upper.x n.x) (b' := delta dom.lower.y dom.upper.y n.y + 10 * s)
      (c' := delta dom.lower.z dom.upper.z n.z) (le_refl _) (by linarith) (le_refl _) (by linarith) (le_refl _) (by linarith)
    set s' := max (max (delta dom.lower.x dom.upper.x n.x) (max (delta dom.lower.y dom.upper.y n.y + 10 * s)
      (delta dom.lower.z dom.upper.z n.z)) * t) t with hs'
    have hpw : boxTolerance t (perturb (10 * s) .yf (cellBox n dom w)) = s' := by
      unfold boxTolerance perturb
      simp only
      rw [dwx, dwz, show (cellBox n dom w).upper.y - ((cellBox n dom w).lower.y - 10 * s) = delta dom.lower.y dom.upper.y n.y + 10 * s by linarith]
    have hpv : boxTolerance t (perturb (10 * s) (reverse .yf) (cellBox n dom v)) = s' := by
      unfold boxTolerance perturb reverse
      simp only
      rw [dvx, dvz, show (cellBox n dom v).upper.y + 10 * s - (cellBox n dom v).lower.y = delta dom.lower.y dom.upper.y n.y + 10 * s by linarith]
    rw [hpw, hpv]
    refine exists_congr fun q => and_congr_right fun hq => ?_
    have h1 := hv' q hq
    have h2 := hw' q hq
    simp only [InShrunkBox, perturb, reverse, f1, f2, f3, f4, f5] at h1 h2 ⊢
    constructor
    · rintro ⟨hX, hY, hZ⟩
      exact ⟨hX, (axis_iff b1 b2 b3 rfl (by linarith) (by linarith) (fun hc => h1 ⟨by constructor <;> linarith [hX.1, hX.2], hc, by constructor <;> linarith [hZ.1, hZ.2]⟩)
        (fun hc => h2 ⟨by constructor <;> linarith [hX.1, hX.2], hc, by constructor <;> linarith [hZ.1, hZ.2]⟩)).1 hY, hZ⟩
    · rintro ⟨hX, hY, hZ⟩
      exact ⟨hX, (axis_iff b1 b2 b3 rfl (by linarith) (by linarith) (fun hc => h1 ⟨by constructor <;> linarith [hX.1, hX.2], hc, by constructor <;> linarith [hZ.1, hZ.2]⟩)
        (fun hc => h2 ⟨by constructor <;> linarith [hX.1, hX.2], hc, by constructor <;> linarith [hZ.1, hZ.2]⟩)).2 hY, hZ⟩
  · obtain ⟨e1, e2, e3⟩ := hnb
    have f1 : (cellBox n dom w).lower.z = (cellBox n dom v).upper.z := by simp only [cellBox, e1]; push_cast; ring
    have f2 : (cellBox n dom w).lower.x = (cellBox n dom v).lower.x := by simp only [cellBox, e2]
    have f3 : (cellBox n dom w).lower.y = (cellBox n dom v).lower.y := by simp only [cellBox, e3]
    have f4 : (cellBox n dom w).upper.x = (cellBox n dom v).upper.x := by simp only [cellBox, e2]
    have f5 : (cellBox n dom w).upper.y = (cellBox n dom v).upper.y := by simp only [cellBox, e3]
    obtain ⟨b1, b2, b3⟩ := tol_bounds (s := s) ht0 ht hs rfl
      (a' := delta dom.lower.x dom.upper.x n.x) (b' := delta dom.lower.y dom.upper.y n.y)
      (c' := delta dom.lower.z dom.upper.z n.z + 10 * s) (le_refl _) (le_refl _) (by linarith) (by linarith) (by linarith) (le_refl _)
    set s' := max (max (delta dom.lower.x dom.upper.x n.x) (max (delta dom.lower.y dom.upper.y n.y)
      (delta dom.lower.z dom.upper.z n.z + 10 * s)) * t) t with hs'
    have hpw : boxTolerance t (perturb (10 * s) .zf (cellBox n dom w)) = s' := by
      unfold boxTolerance perturb
      simp only
      rw [dwx, dwy, show (cellBox n dom w).upper.z - ((cellBox n dom w).lower.z - 10 * s) = delta dom.lower.z dom.upper.z n.z + 10 * s by linarith]
    have hpv : boxTolerance t (perturb (10 * s) (reverse .zf) (cellBox n dom v)) = s' := by
      unfold boxTolerance perturb reverse
      simp only
      rw [dvx, dvy, show (cellBox n dom v).upper.z + 10 * s - (cellBox n dom v).lower.z = delta dom.lower.z dom.upper.z n.z + 10 * s by linarith]
    rw [hpw, hpv]
    refine exists_congr fun q => and_congr_right fun hq => ?_
    have h1 := hv' q hq
    have h2 := hw' q hq
    simp only [InShrunkBox, perturb, reverse, f1, f2, f3, f4, f5] at h1 h2 ⊢
    constructor
    · rintro ⟨hX, hY, hZ⟩
      exact ⟨hX, hY, (axis_iff b1 b2 b3 rfl (by linarith) (by linarith) (fun hc => h1 ⟨by constructor <;> linarith [hX.1, hX.2], by constructor <;> linarith [hY.1, hY.2], hc⟩)
        (fun hc => h2 ⟨by constructor <;> linarith [hX.1, hX.2], by constructor <;> linarith [hY.1, hY.2], hc⟩)).1 hZ⟩
    · rintro ⟨hX, hY, hZ⟩
      exact ⟨hX, hY, (axis_iff b1 b2 b3 rfl (by linarith) (by linarith) (fun hc => h1 ⟨by constructor <;> linarith [hX.1, hX.2], by constructor <;> linarith [hY.1, hY.2], hc⟩)
        (fun hc => h2 ⟨by constructor <;> linarith [hX.1, hX.2], by constructor <;> linarith [hY.1, hY.2], hc⟩)).2 hZ⟩

theorem same_from_both_sides {S : V3 K → Prop} {t : K} {isT : Box K → Bool} (onB : V3 K → Box K → Bool)
    (hE : ExactTrimTest S t isT) (ht0 : 0 < t)
    (ht : t ≤ 1 / 10) {n : V3 Nat} (hn : InGrid n ⟨0, 0, 0⟩) {dom : Box K}
    (hx : offsetTol n dom t ≤ delta dom.lower.x dom.upper.x n.x)
    (hy : offsetTol n dom t ≤ delta dom.lower.y dom.upper.y n.y)
    (hz : offsetTol n dom t ≤ delta dom.lower.z dom.upper.z n.z) :
    SameFromBothSides (geoOf isT onB (offsetTol n dom t) n dom) n := by
  intro i j d e h1 h2 hi hj
  rw [faceNeighbour_iff hn] at h1 h2
  have he := neighbour_rev_unique h1.2.2 h2.2.2
  subst he
  simp only [geoOf, boxXYZ] at hi hj ⊢
  have hcases : (d = .xf ∨ d = .yf ∨ d = .zf) ∨ (reverse d = .xf ∨ reverse d = .yf ∨ reverse d = .zf) := by
    cases d <;> simp [reverse]
  rcases hcases with hd | hd
  · exact sym_forward hE ht0 ht hx hy hz hd h1.2.2 hi hj
  · have := sym_forward hE ht0 ht hx hy hz hd h2.2.2 hj hi
    rw [reverse_reverse] at this
    exact this.symm

end QuESo.Flood
