import Verif.Proofs.GGQBlocks
import Verif.Proofs.GridBoxes
import Verif.Spec.Geometry
import Mathlib.Algebra.BigOperators.Ring.Finset
import Mathlib.Algebra.Order.BigOperators.Group.Finset
import Mathlib.Tactic.FieldSimp

/-! # Weights handed out by the GGQ assembly -/
namespace QuESo.GGQ
open QuESo.BGrid QuESo.Grid QuESo.Spec

variable {K : Type _} [Field K] [LinearOrder K] [IsStrictOrderedRing K]

/-- Sum of the weights of a list of one-dimensional points. -/
def sum1 (l : List (K × K)) : K := (l.map (·.2)).sum

theorem points1D_cons (e2 e3 : K) (q : K × K) (rule : List (K × K)) (L U a b : K) :
    sum1 (points1D e2 e3 (q :: rule) L U a b) =
      (if a - e3 ≤ L + (U - L) * q.1 ∧ L + (U - L) * q.1 < b - e3 then |U - L| * q.2 else 0) +
        sum1 (points1D e2 e3 rule L U a b) := by
  unfold points1D sum1
  rw [List.filterMap_cons]
  by_cases h : a - e3 ≤ L + (U - L) * q.1 ∧ L + (U - L) * q.1 < b - e3
  · simp only [h, and_self, if_true, List.map_cons, List.sum_cons]
    split <;> rfl
  · simp only [h, if_false, zero_add]

/-- Exactly one cell of the row accepts the position `p`. -/
theorem unique_cell (a D e3 p : K) (hD : 0 < D) (l m : Nat)
    (h1 : a + D * (l : K) - e3 ≤ p) (h2 : p < a + D * ((l + m : Nat) : K) - e3) :
    ∃! k, k < m ∧ a + D * ((l + k : Nat) : K) - e3 ≤ p ∧ p < a + D * (1 + ((l + k : Nat) : K)) - e3 := by
  obtain ⟨k, hk, k1, k2⟩ := exists_slot D (p - a + e3 - D * l) m (by linarith)
    (by push_cast at h2; linarith [mul_add D (l : K) (m : K)])
  refine ⟨k, ⟨hk, ?_, ?_⟩, ?_⟩
  · push_cast; linarith [mul_add D (l : K) (k : K)]
  · push_cast; linarith [mul_add D (l : K) (k : K), mul_add D (1 : K) ((l : K) + k), mul_add D (1 : K) (k : K)]
  · rintro k' ⟨_, h3, h4⟩
    push_cast at h3 h4
    have e1 := mul_add D (l : K) (k' : K)
    have e2 := mul_add D (1 : K) ((l : K) + k')
    have e3' := mul_add D (1 : K) (k' : K)
    exact slot_unique_half D hD (p - a + e3 - D * l) k' k (by linarith) (by linarith) k1 k2

/-- Summed over the cells of a row, all weights of the one-dimensional rule are handed out. -/
theorem row_sum (a D e2 e3 L U : K) (hD : 0 < D) (l m : Nat) (rule : List (K × K))
    (hL : L = a + D * (l : K)) (hU : U = a + D * ((l + m : Nat) : K))
    (hr : ∀ q ∈ rule, L - e3 ≤ L + (U - L) * q.1 ∧ L + (U - L) * q.1 < U - e3) :
    ∑ k ∈ Finset.range m, sum1 (points1D e2 e3 rule L U (a + D * ((l + k : Nat) : K))
      (a + D * (1 + ((l + k : Nat) : K)))) = |U - L| * sum1 rule := by
  induction rule with
  | nil => simp [points1D, sum1]
  | cons q rule ih =>
    simp only [points1D_cons, Finset.sum_add_distrib]
    rw [ih (fun x hx => hr x (List.mem_cons_of_mem _ hx))]
    have hq := hr q (by simp)
    obtain ⟨k, ⟨hk, hk1, hk2⟩, huniq⟩ := unique_cell a D e3 (L + (U - L) * q.1) hD l m
      (by rw [← hL]; exact hq.1) (by rw [← hU]; exact hq.2)
    rw [Finset.sum_eq_single k]
    · rw [if_pos ⟨hk1, hk2⟩]
      simp only [sum1, List.map_cons, List.sum_cons]; ring
    · intro k' hk' hne
      rw [if_neg]
      rintro ⟨c1, c2⟩
      exact hne (huniq k' ⟨Finset.mem_range.mp hk', c1, c2⟩)
    · intro hc; exact absurd (Finset.mem_range.mpr hk) hc

/-- Sum of the weights of a list of integration points. -/
def sumW (l : List (IP K)) : K := (l.map (·.weight)).sum

theorem tensor_sum (pu pv pw : List (K × K)) : sumW (tensor pu pv pw) = sum1 pu * sum1 pv * sum1 pw := by
  unfold sumW sum1 tensor
  have h1 : ∀ (c : K) (l : List (K × K)), (l.map (fun w => c * w.2)).sum = c * (l.map (·.2)).sum := by
    intro c l
    induction l with
    | nil => simp
    | cons x t ih => simp [ih, mul_add]
  have hflat : ∀ {β : Type _} (l : List β) (f : β → List (IP K)),
      ((l.flatMap f).map (·.weight)).sum = (l.map (fun x => ((f x).map (·.weight)).sum)).sum := by
    intro β l f
    induction l with
    | nil => simp
    | cons x t ih => simp [List.flatMap_cons, ih]
  rw [hflat]
  simp only [hflat, List.map_map, Function.comp_def]
  simp only [h1]
  have h2 : ∀ (c d : K) (l : List (K × K)), (l.map (fun v => c * v.2 * d)).sum = c * (l.map (·.2)).sum * d := by
    intro c d l
    induction l with
    | nil => simp
    | cons x t ih => simp [ih]; ring
  simp only [h2]
  induction pu with
  | nil => simp
  | cons x t ih => simp [ih]; ring

/-- Sum over the ids of a block as a triple sum over the coordinates. -/
theorem sum_block {n lo size : V3 Nat} {elems : List Nat} (hb : IsBlock n lo size elems) (f : Nat → K) :
    (elems.map f).sum = ∑ a ∈ Finset.range size.x, ∑ b ∈ Finset.range size.y, ∑ c ∈ Finset.range size.z,
      f (toVec n ⟨lo.x + a, lo.y + b, lo.z + c⟩ + 1) := by
  obtain ⟨⟨b1, b2, b3⟩, hn, hm⟩ := hb
  have e1 : elems.toFinset = blkIds n lo size := by
    ext id; rw [List.mem_toFinset, hm, mem_blkIds]
  rw [← List.sum_toFinset _ hn, e1, blkIds, Finset.sum_image, Finset.sum_product]
  · apply Finset.sum_congr rfl
    intro a _
    rw [Finset.sum_product]
  · rintro ⟨a, b, c⟩ h ⟨a', b', c'⟩ h' e
    simp only [Finset.coe_product, Finset.coe_range, Set.mem_prod, Set.mem_Iio] at h h'
    have := toVec_inj (n := n) (v := ⟨lo.x + a, lo.y + b, lo.z + c⟩) (w := ⟨lo.x + a', lo.y + b', lo.z + c'⟩)
      ⟨by simp only []; omega, by simp only []; omega, by simp only []; omega⟩
      ⟨by simp only []; omega, by simp only []; omega, by simp only []; omega⟩ (by simpa using e)
    simp only [V3.mk.injEq] at this
    obtain ⟨t1, t2, t3⟩ := this
    simp only [Prod.mk.injEq]
    omega

end QuESo.GGQ
