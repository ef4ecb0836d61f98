import Verif.Spec.Octree
import Mathlib.Tactic.Linarith
import Mathlib.Tactic.Ring
import Mathlib.Tactic.FieldSimp
import Mathlib.Algebra.BigOperators.Group.List.Basic
import Mathlib.Algebra.BigOperators.Ring.List
import Mathlib.Data.Nat.Choose.Sum
import Mathlib.Algebra.BigOperators.Field
import Mathlib.Algebra.Order.Field.Basic
import Mathlib.Algebra.Order.Ring.Abs

namespace QuESo.Quad
open Mapping Spec
variable {K : Type _} [Field K] [LinearOrder K] [IsStrictOrderedRing K]

theorem assembleIPs_length (ru rv rw : List (K × K)) (b : Box K) :
    (assembleIPs ru rv rw b).length = ru.length * rv.length * rw.length := by
  have h2 : ∀ (l : List (K × K)) (f : K × K → K × K → VolPoint K),
      (l.flatMap fun v => rw.map (f v)).length = l.length * rw.length := by
    intro l f
    induction l with
    | nil => simp
    | cons a l ih => simp only [List.flatMap_cons, List.length_append, ih, List.length_map, List.length_cons]; ring
  unfold assembleIPs
  simp only
  induction ru with
  | nil => simp
  | cons a l ih =>
    simp only [List.flatMap_cons, List.length_append, ih, h2, List.length_cons]
    ring

theorem mem_assembleIPs {ru rv rw : List (K × K)} {b : Box K} {q : VolPoint K} :
    q ∈ assembleIPs ru rv rw b ↔ ∃ u ∈ ru, ∃ v ∈ rv, ∃ w ∈ rw,
      q = tensorPoint b.lower
        ⟨|b.upper.x - b.lower.x|, |b.upper.y - b.lower.y|, |b.upper.z - b.lower.z|⟩ u v w := by
  unfold assembleIPs
  simp only [List.mem_flatMap, List.mem_map]
  constructor
  · rintro ⟨u, hu, v, hv, w, hw, rfl⟩; exact ⟨u, hu, v, hv, w, hw, rfl⟩
  · rintro ⟨u, hu, v, hv, w, hw, rfl⟩; exact ⟨u, hu, v, hv, w, hw, rfl⟩

theorem assembleIPs_inBox {ru rv rw : List (K × K)} {b : Box K} (hb : OrderedBox b)
    (hu : NodesInUnit ru) (hv : NodesInUnit rv) (hw : NodesInUnit rw) {q : VolPoint K}
    (hq : q ∈ assembleIPs ru rv rw b) : InBox b q.pos := by
  obtain ⟨u, mu, v, mv, w, mw, rfl⟩ := mem_assembleIPs.1 hq
  have aux : ∀ {lo up t : K}, lo ≤ up → 0 ≤ t ∧ t ≤ 1 →
      lo ≤ lo + |up - lo| * t ∧ lo + |up - lo| * t ≤ up := by
    intro lo up t h ht
    rw [abs_of_nonneg (by linarith)]
    constructor
    · have := mul_nonneg (sub_nonneg.2 h) ht.1; linarith
    · have := mul_le_mul_of_nonneg_left ht.2 (sub_nonneg.2 h); linarith
  exact ⟨aux hb.1 (hu _ mu), aux hb.2.1 (hv _ mv), aux hb.2.2 (hw _ mw)⟩

/-- A sum over the tensor product of a product of functions. -/
theorem sum_tensor (ru rv rw : List (K × K)) (b : Box K) (f : VolPoint K → K) (fx fy fz : K × K → K)
    (h : ∀ u v w, f (tensorPoint b.lower
        ⟨|b.upper.x - b.lower.x|, |b.upper.y - b.lower.y|, |b.upper.z - b.lower.z|⟩ u v w)
        = fx u * fy v * fz w) :
    ((assembleIPs ru rv rw b).map f).sum = (ru.map fx).sum * (rv.map fy).sum * (rw.map fz).sum := by
  have h3 : ∀ u v, ((rw.map fun w => tensorPoint b.lower
        ⟨|b.upper.x - b.lower.x|, |b.upper.y - b.lower.y|, |b.upper.z - b.lower.z|⟩ u v w).map f).sum
        = fx u * fy v * (rw.map fz).sum := by
    intro u v
    rw [List.map_map, ← List.sum_map_mul_left]
    congr 1
    apply List.map_congr_left
    intro w _
    exact h u v w
  have h2 : ∀ u, ((rv.flatMap fun v => rw.map fun w => tensorPoint b.lower
        ⟨|b.upper.x - b.lower.x|, |b.upper.y - b.lower.y|, |b.upper.z - b.lower.z|⟩ u v w).map f).sum
        = fx u * (rv.map fy).sum * (rw.map fz).sum := by
    intro u
    induction rv with
    | nil => simp
    | cons v l ih =>
      simp only [List.flatMap_cons, List.map_append, List.sum_append, h3, ih, List.map_cons, List.sum_cons]
      ring
  unfold assembleIPs
  simp only
  induction ru with
  | nil => simp
  | cons u l ih =>
    simp only [List.flatMap_cons, List.map_append, List.sum_append, h2, ih, List.map_cons, List.sum_cons]
    ring

theorem choose_div (a k : ℕ) : (a.choose k : K) / (k + 1) = ((a + 1).choose (k + 1) : K) / (a + 1) := by
  have h : ((a + 1 : ℕ) : K) * (a.choose k : K) = ((a + 1).choose (k + 1) : K) * ((k + 1 : ℕ) : K) := by
    exact_mod_cast Nat.add_one_mul_choose_eq a k
  have h1 : ((k : K) + 1) ≠ 0 := by positivity
  have h2 : ((a : K) + 1) ≠ 0 := by positivity
  push_cast at h
  field_simp
  linarith [h]

/-- A rule that is exact on the unit interval is exact on every interval. -/
theorem rule1D_monomial {r : List (K × K)} {d : Nat} (h : ExactUpTo r d) {a : Nat} (ha : a ≤ d) (lo len : K) :
    (r.map fun q => q.2 * len * (lo + len * q.1) ^ a).sum
      = ((lo + len) ^ (a + 1) - lo ^ (a + 1)) / (a + 1) := by
  have e1 : (r.map fun q => q.2 * len * (lo + len * q.1) ^ a).sum
      = ∑ k ∈ Finset.range (a + 1), (lo ^ (a - k) * len ^ (k + 1) * (a.choose k : K)) *
          (r.map fun q => q.2 * q.1 ^ k).sum := by
    clear h
    induction r with
    | nil => simp
    | cons q r ih =>
      simp only [List.map_cons, List.sum_cons, ih, mul_add, Finset.sum_add_distrib]
      congr 1
      rw [add_comm lo, add_pow, Finset.mul_sum]
      apply Finset.sum_congr rfl
      intro k _
      rw [mul_pow]; ring
  rw [e1]
  have e2 : ∀ k ∈ Finset.range (a + 1), (lo ^ (a - k) * len ^ (k + 1) * (a.choose k : K)) *
          (r.map fun q => q.2 * q.1 ^ k).sum
        = (len ^ (k + 1) * lo ^ (a + 1 - (k + 1)) * ((a + 1).choose (k + 1) : K)) / (a + 1) := by
    intro k hk
    have hk' : k ≤ a := by simpa [Nat.lt_succ_iff] using Finset.mem_range.1 hk
    rw [h k (by omega), Nat.add_sub_add_right, mul_div_assoc, ← choose_div]
    ring
  rw [Finset.sum_congr rfl e2, ← Finset.sum_div]
  congr 1
  rw [add_comm lo len, add_pow len lo (a + 1), Finset.sum_range_succ' _ (a + 1)]
  simp

theorem tensor_monomial {ru rv rw : List (K × K)} {d : V3 Nat} (hu : ExactUpTo ru d.x)
    (hv : ExactUpTo rv d.y) (hw : ExactUpTo rw d.z) {b : Box K} (hb : OrderedBox b) {e : V3 Nat}
    (ex : e.x ≤ d.x) (ey : e.y ≤ d.y) (ez : e.z ≤ d.z) :
    ruleValue e (assembleIPs ru rv rw b) = monomialIntegral e b := by
  unfold ruleValue monomialIntegral
  rw [sum_tensor ru rv rw b _
    (fun q => q.2 * |b.upper.x - b.lower.x| * (b.lower.x + |b.upper.x - b.lower.x| * q.1) ^ e.x)
    (fun q => q.2 * |b.upper.y - b.lower.y| * (b.lower.y + |b.upper.y - b.lower.y| * q.1) ^ e.y)
    (fun q => q.2 * |b.upper.z - b.lower.z| * (b.lower.z + |b.upper.z - b.lower.z| * q.1) ^ e.z)
    (by intro u v w; simp only [tensorPoint]; ring)]
  rw [rule1D_monomial hu ex, rule1D_monomial hv ey, rule1D_monomial hw ez,
    abs_of_nonneg (sub_nonneg.2 hb.1), abs_of_nonneg (sub_nonneg.2 hb.2.1), abs_of_nonneg (sub_nonneg.2 hb.2.2)]
  simp only [add_sub_cancel]

theorem tensor_weights {ru rv rw : List (K × K)} (hu : (ru.map Prod.snd).sum = 1)
    (hv : (rv.map Prod.snd).sum = 1) (hw : (rw.map Prod.snd).sum = 1) {b : Box K} (hb : OrderedBox b) :
    ((assembleIPs ru rv rw b).map VolPoint.weight).sum = boxVolume b := by
  have key : ∀ (r : List (K × K)) (c : K), (r.map Prod.snd).sum = 1 → (r.map fun q => q.2 * c).sum = c := by
    intro r c h
    have := List.sum_map_mul_right (l := r) (f := Prod.snd) (r := c)
    rw [h, one_mul] at this
    exact this
  rw [sum_tensor ru rv rw b _ (fun q => q.2 * |b.upper.x - b.lower.x|)
    (fun q => q.2 * |b.upper.y - b.lower.y|) (fun q => q.2 * |b.upper.z - b.lower.z|)
    (by intro u v w; simp only [tensorPoint]; ring), key _ _ hu, key _ _ hv, key _ _ hw,
    abs_of_nonneg (sub_nonneg.2 hb.1), abs_of_nonneg (sub_nonneg.2 hb.2.1), abs_of_nonneg (sub_nonneg.2 hb.2.2)]
  rfl

theorem tensor_pos {ru rv rw : List (K × K)} {b : Box K}
    (hu : ∀ q ∈ ru, 0 ≤ q.2) (hv : ∀ q ∈ rv, 0 ≤ q.2) (hw : ∀ q ∈ rw, 0 ≤ q.2) {q : VolPoint K}
    (hq : q ∈ assembleIPs ru rv rw b) : 0 ≤ q.weight := by
  obtain ⟨u, mu, v, mv, w, mw, rfl⟩ := mem_assembleIPs.1 hq
  have := hu _ mu; have := hv _ mv; have := hw _ mw
  simp only [tensorPoint]
  positivity

end QuESo.Quad
