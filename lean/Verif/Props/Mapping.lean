import Verif.Proofs.Mapping
import Verif.Model.CellDomain
import Mathlib.Tactic.NormNum
import Mathlib.Algebra.Order.Ring.Rat

/-!
# C34, C54 mapping between the spaces, C53 the domain of an untrimmed element
-/
namespace QuESo.Mapping
open Spec
variable {K : Type _} [Field K] [LinearOrder K] [IsStrictOrderedRing K]

/-- **C34** The two maps are inverse to each other. -/
theorem C34_inverse {b : Bounds K} (hg : ProperBox b.global) (hp : ProperBox b.parametric) (p : V3 K) :
    toParametric (toGlobal p b) b = p ∧ toGlobal (toParametric p b) b = p :=
  ⟨toParametric_toGlobal hg hp p, toGlobal_toParametric hg hp p⟩

/-- **C34** The maps take the box to the box: corners to corners, and a point lies in one box exactly if
its image lies in the other one. -/
theorem C34_box_to_box {b : Bounds K} (hg : ProperBox b.global) (hp : ProperBox b.parametric) :
    toGlobal b.parametric.lower b = b.global.lower ∧ toGlobal b.parametric.upper b = b.global.upper ∧
    (∀ p, InBox b.global (toGlobal p b) ↔ InBox b.parametric p) ∧
    (∀ p, InBox b.parametric (toParametric p b) ↔ InBox b.global p) := by
  refine ⟨?_, ?_, toGlobal_inBox hg hp, fun p => toGlobal_inBox (b := ⟨b.parametric, b.global⟩) hp hg p⟩
  · apply V3.ext <;> simp [toGlobal]
  · unfold toGlobal
    rw [scale_pos hp hg]
    have p1 := (sub_pos.2 hp.1).ne'; have p2 := (sub_pos.2 hp.2.1).ne'; have p3 := (sub_pos.2 hp.2.2).ne'
    apply V3.ext <;> simp only <;> field_simp <;> ring

/-- **C34** Volume integration points: there and back again returns the point with its weight, the weights
are scaled by a positive factor, and that factor turns the parametric into the physical volume. -/
theorem C34_integration_points {b : Bounds K} (hg : ProperBox b.global) (hp : ProperBox b.parametric)
    (q : VolPoint K) :
    ipToParametric (ipToGlobal q b) b = q ∧ ipToGlobal (ipToParametric q b) b = q ∧
    0 < detJ b ∧ (ipToGlobal q b).weight = q.weight * detJ b ∧
    detJ b * boxVolume b.parametric = boxVolume b.global := by
  have hd := detJ_pos hg hp
  refine ⟨?_, ?_, hd, rfl, detJ_volume hg hp⟩
  · unfold ipToParametric ipToGlobal
    simp only [toParametric_toGlobal hg hp, mul_div_cancel_right₀ _ hd.ne']
  · unfold ipToParametric ipToGlobal
    simp only [toGlobal_toParametric hg hp, div_mul_cancel₀ _ hd.ne']

/-- **C54** Area vectors: the vector that the code computes from the area vector (cross product of two edges)
of a triangle is the area vector of the mapped triangle. -/
theorem C54_area_vector {b : Bounds K} (hg : ProperBox b.global) (hp : ProperBox b.parametric) (p q r : V3 K) :
    areaVector (V3.cross (q - p) (r - p)) (computeScale b.parametric b.global) =
      V3.cross (toGlobal q b - toGlobal p b) (toGlobal r b - toGlobal p b) :=
  (area_cross hg hp p q r).symm

/-- **C54** Boundary integration points: weight times normal (the area vector the point stands for) is
transformed as the area vectors of triangles are, whenever the transformed vector is longer than the zero
tolerance. -/
theorem C54_boundary_points {b : Bounds K} {norm : V3 K → K} {zeroTol : K} (hz : 0 ≤ zeroTol) (q : BndPoint K)
    (h : zeroTol < norm (areaVector q.normal (computeScale b.parametric b.global))) :
    V3.scale (bndToGlobal norm zeroTol q b).weight (bndToGlobal norm zeroTol q b).normal =
      areaVector (V3.scale q.weight q.normal) (computeScale b.parametric b.global) := by
  unfold bndToGlobal areaData
  simp only [gt_iff_lt, if_pos h]
  have hn := (lt_of_le_of_lt hz h).ne'
  generalize norm (areaVector q.normal (computeScale b.parametric b.global)) = r at hn
  apply V3.ext <;> simp only [areaVector, V3.scale] <;> field_simp

/-- **C54** Boundary integration points with a unit normal survive there and back again, as long as both
lengths exceed the zero tolerance. -/
theorem C54_boundary_round_trip_partial {b : Bounds K} (hg : ProperBox b.global) (hp : ProperBox b.parametric)
    {norm : V3 K → K} (hnorm : ∀ c v, norm (V3.scale c v) = |c| * norm v) {zeroTol : K} (hz : 0 ≤ zeroTol)
    (q : BndPoint K) (hq : norm q.normal = 1)
    (h1 : zeroTol < norm (areaVector q.normal (computeScale b.global b.parametric)))
    (h2 : zeroTol < 1 / norm (areaVector q.normal (computeScale b.global b.parametric))) :
    bndToGlobal norm zeroTol (bndToParametric norm zeroTol q b) b = q := by
  set r := norm (areaVector q.normal (computeScale b.global b.parametric)) with hr
  have hrp : 0 < r := lt_of_le_of_lt hz h1
  have e : bndToParametric norm zeroTol q b =
      ⟨toParametric q.pos b, q.weight * r,
        V3.scale (1 / r) (areaVector q.normal (computeScale b.global b.parametric))⟩ := by
    unfold bndToParametric areaData
    simp only [gt_iff_lt, ← hr, if_pos h1]
  rw [e]
  unfold bndToGlobal areaData
  simp only
  rw [area_inverse hg hp, hnorm, hq, mul_one, abs_of_pos (one_div_pos.2 hrp), toGlobal_toParametric hg hp]
  simp only [gt_iff_lt, if_pos h2]
  cases q with
  | mk pos w n =>
    congr 1
    · field_simp
    · apply V3.ext <;> simp only [V3.scale] <;> field_simp

/-- **C54** is false of the code for boundary integration points in general: for every positive tolerance
there are proper boxes and a boundary point with unit normal whose normal is replaced by zero. -/
theorem C54_false_of_code (zeroTol : K) (hz : 0 < zeroTol) (norm : V3 K → K)
    (hnorm : ∀ c : K, norm ⟨c, 0, 0⟩ = |c|) :
    ∃ (b : Bounds K) (q : BndPoint K), ProperBox b.global ∧ ProperBox b.parametric ∧ norm q.normal = 1 ∧
      (bndToParametric norm zeroTol q b).normal = ⟨0, 0, 0⟩ ∧
      bndToGlobal norm zeroTol (bndToParametric norm zeroTol q b) b ≠ q := by
  -- the physical box is `1 + 1/zeroTol` times larger than the parametric one
  have hs : 0 < 1 + 1 / zeroTol := by positivity
  let B : Bounds K := ⟨⟨⟨0, 0, 0⟩, ⟨1 + 1 / zeroTol, 1 + 1 / zeroTol, 1 + 1 / zeroTol⟩⟩, ⟨⟨0, 0, 0⟩, ⟨1, 1, 1⟩⟩⟩
  let q : BndPoint K := ⟨⟨0, 0, 0⟩, 1, ⟨1, 0, 0⟩⟩
  have hg : ProperBox B.global := ⟨hs, hs, hs⟩
  have hp : ProperBox B.parametric := ⟨zero_lt_one, zero_lt_one, zero_lt_one⟩
  set r : K := 1 / (1 + 1 / zeroTol) with hr
  have hr0 : 0 < r := by positivity
  have hr1 : r < 1 := by
    rw [hr, div_lt_one hs]
    have : 0 < 1 / zeroTol := by positivity
    linarith
  have hrz : r < zeroTol := by
    rw [hr, div_lt_iff₀ hs, mul_add, mul_one_div_cancel hz.ne']
    linarith
  have hrr : r * r ≤ zeroTol := by
    have : r * r ≤ r * 1 := mul_le_mul_of_nonneg_left hr1.le hr0.le
    linarith
  have ev : areaVector q.normal (computeScale B.global B.parametric) = ⟨r * r, 0, 0⟩ := by
    rw [scale_pos hg hp]
    apply V3.ext <;> simp [areaVector, q, B, hr]
  have en : (bndToParametric norm zeroTol q B).normal = ⟨0, 0, 0⟩ := by
    unfold bndToParametric areaData
    simp only [ev, hnorm, abs_of_pos (mul_pos hr0 hr0), gt_iff_lt, if_neg (not_lt.2 hrr)]
  refine ⟨B, q, hg, hp, by simp [q, hnorm], en, ?_⟩
  intro hc
  have h1 := congrArg BndPoint.normal hc
  unfold bndToGlobal areaData at h1
  simp only [en, areaVector, zero_mul] at h1
  rw [show norm (⟨0, 0, 0⟩ : V3 K) = 0 by rw [hnorm, abs_zero]] at h1
  simp only [gt_iff_lt, if_neg (not_lt.2 hz.le)] at h1
  have := congrArg V3.x h1
  simp [q] at this

/-- The unit cube and a box of size 2, 4, 8: the hypotheses can be met. -/
example : ProperBox (⟨⟨0, 0, 0⟩, ⟨1, 1, 1⟩⟩ : Box ℚ) ∧ ProperBox (⟨⟨1, 1, 1⟩, ⟨3, 5, 9⟩⟩ : Box ℚ) ∧
    toGlobal ⟨1 / 2, 1 / 2, 1 / 2⟩ (⟨⟨⟨1, 1, 1⟩, ⟨3, 5, 9⟩⟩, ⟨⟨0, 0, 0⟩, ⟨1, 1, 1⟩⟩⟩ : Bounds ℚ) = ⟨2, 3, 5⟩ := by
  refine ⟨?_, ?_, ?_⟩
  · simp [ProperBox]
  · norm_num [ProperBox]
  · norm_num [toGlobal, computeScale]

end QuESo.Mapping

namespace QuESo.CellDomain
open Spec
variable {K : Type _} [Field K] [LinearOrder K] [IsStrictOrderedRing K]

/-- **C53** The point test of an untrimmed element is membership in its closed box. -/
theorem C53_point (b : Box K) (p : V3 K) : isInside b p = true ↔ InBox b p := by
  simp only [isInside, InBox, Bool.and_eq_true, decide_eq_true_eq]
  tauto

/-- The query box after shrinking by the tolerance. -/
def shrunk (lower upper : V3 K) (tol : K) : Box K :=
  ⟨⟨lower.x + tol, lower.y + tol, lower.z + tol⟩, ⟨upper.x - tol, upper.y - tol, upper.z - tol⟩⟩

/-- **C53** The box test of an untrimmed element, for query boxes larger than twice the tolerance: "outside"
if and only if the shrunk box and the element have no common point, "inside" if and only if the shrunk box
lies in the element, otherwise "trimmed". -/
theorem C53_box {b : Box K} (hb : OrderedBox b) {lower upper : V3 K} {tol : K}
    (hs : OrderedBox (shrunk lower upper tol)) :
    (intersectionState b lower upper tol = .outside ↔ ∀ p, InBox b p → ¬ InBox (shrunk lower upper tol) p) ∧
    (intersectionState b lower upper tol = .inside ↔ ∀ p, InBox (shrunk lower upper tol) p → InBox b p) := by
  obtain ⟨hb1, hb2, hb3⟩ := hb
  obtain ⟨s1, s2, s3⟩ := hs
  simp only [shrunk] at s1 s2 s3
  -- the corners of the shrunk box
  have lowIn : InBox (shrunk lower upper tol) ⟨lower.x + tol, lower.y + tol, lower.z + tol⟩ :=
    ⟨⟨le_refl _, s1⟩, ⟨le_refl _, s2⟩, le_refl _, s3⟩
  have upIn : InBox (shrunk lower upper tol) ⟨upper.x - tol, upper.y - tol, upper.z - tol⟩ :=
    ⟨⟨s1, le_refl _⟩, ⟨s2, le_refl _⟩, s3, le_refl _⟩
  have out : intersectionState b lower upper tol = .outside ↔
      (upper.x - tol < b.lower.x ∨ b.upper.x < lower.x + tol ∨ upper.y - tol < b.lower.y ∨
        b.upper.y < lower.y + tol ∨ upper.z - tol < b.lower.z ∨ b.upper.z < lower.z + tol) := by
    unfold intersectionState
    simp only [Bool.or_eq_true, decide_eq_true_eq, or_assoc]
    split
    · rename_i h; simp [h]
    · rename_i h; split <;> simp [h]
  have ins : intersectionState b lower upper tol = .inside ↔
      ¬ intersectionState b lower upper tol = .outside ∧
      b.lower.x ≤ lower.x + tol ∧ upper.x - tol ≤ b.upper.x ∧ b.lower.y ≤ lower.y + tol ∧
        upper.y - tol ≤ b.upper.y ∧ b.lower.z ≤ lower.z + tol ∧ upper.z - tol ≤ b.upper.z := by
    rw [out]
    unfold intersectionState
    simp only [Bool.or_eq_true, decide_eq_true_eq, or_assoc, Bool.and_eq_true, and_assoc]
    split
    · rename_i h; simp [h]
    · rename_i h
      split
      · rename_i h2; simp only [true_iff]; exact ⟨h, h2⟩
      · rename_i h2
        constructor
        · intro hc; cases hc
        · rintro ⟨_, h3⟩; exact absurd h3 h2
  have common : (¬ intersectionState b lower upper tol = .outside) ↔
      ∃ p, InBox b p ∧ InBox (shrunk lower upper tol) p := by
    rw [out]
    constructor
    · intro h
      push Not at h
      obtain ⟨h1, h2, h3, h4, h5, h6⟩ := h
      exact ⟨⟨max b.lower.x (lower.x + tol), max b.lower.y (lower.y + tol), max b.lower.z (lower.z + tol)⟩,
        ⟨⟨le_max_left _ _, max_le hb1 h2⟩, ⟨le_max_left _ _, max_le hb2 h4⟩, le_max_left _ _, max_le hb3 h6⟩,
        ⟨⟨le_max_right _ _, max_le h1 s1⟩, ⟨le_max_right _ _, max_le h3 s2⟩, le_max_right _ _, max_le h5 s3⟩⟩
    · rintro ⟨p, ⟨⟨a1, a2⟩, ⟨a3, a4⟩, a5, a6⟩, ⟨⟨c1, c2⟩, ⟨c3, c4⟩, c5, c6⟩⟩
      simp only [shrunk] at c1 c2 c3 c4 c5 c6
      push Not
      exact ⟨a1.trans c2, c1.trans a2, a3.trans c4, c3.trans a4, a5.trans c6, c5.trans a6⟩
  constructor
  · rw [← not_iff_not, common]
    push Not
    rfl
  · constructor
    · intro h p hp
      obtain ⟨-, h1, h2, h3, h4, h5, h6⟩ := ins.1 h
      exact ⟨⟨h1.trans hp.1.1, hp.1.2.trans h2⟩, ⟨h3.trans hp.2.1.1, hp.2.1.2.trans h4⟩,
        h5.trans hp.2.2.1, hp.2.2.2.trans h6⟩
    · intro h
      have hl := h _ lowIn
      have hu := h _ upIn
      exact ins.2 ⟨common.2 ⟨_, hl, lowIn⟩, hl.1.1, hu.1.2, hl.2.1.1, hu.2.1.2, hl.2.2.1, hu.2.2.2⟩

/-- A query box of size one and a tolerance of one hundredth. -/
example : OrderedBox (shrunk (⟨0, 0, 0⟩ : V3 ℚ) ⟨1, 1, 1⟩ (1 / 100)) := by
  norm_num [OrderedBox, shrunk]

end QuESo.CellDomain
