import Verif.Spec.BSpline
import Mathlib.Tactic.Ring
import Mathlib.Tactic.Linarith
import Mathlib.Tactic.FieldSimp
import Mathlib.Algebra.BigOperators.Intervals
import Mathlib.Algebra.BigOperators.Ring.Finset

/-!
# B-splines whose coefficients are the means of knots reproduce affine functions
-/
namespace QuESo.BSplineSpec
variable {K : Type _} [Field K] [LinearOrder K] [IsStrictOrderedRing K]

/-- Knots up to index `m` are in order. -/
def Ordered (t : Nat → K) (m : Nat) : Prop := ∀ i j, i ≤ j → j ≤ m → t i ≤ t j

omit [Field K] [IsStrictOrderedRing K] in
/-- The interval of the domain in which a point lies. -/
theorem exists_interval {t : Nat → K} {p n : Nat} (ho : Ordered t (n + p)) (hpn : p < n) {u : K} (hl : t p ≤ u) (hu : u ≤ t n)
    (hne : t p < t n) : ∃ l, p ≤ l ∧ l < n ∧ t l < t (l + 1) ∧
      ((t l ≤ u ∧ u < t (l + 1) ∧ u < t n) ∨ (u = t n ∧ t l < t n ∧ t (l + 1) = t n)) := by
  classical
  rcases lt_or_eq_of_le hu with hu | hu
  · have hex : ∃ m, p ≤ m ∧ u < t m := ⟨n, by omega, hu⟩
    obtain ⟨h1, h2⟩ := Nat.find_spec hex
    have hm : Nat.find hex ≤ n := Nat.find_min' hex ⟨by omega, hu⟩
    have hp : p ≠ Nat.find hex := fun h => by rw [← h] at h2; exact absurd hl (not_le.2 h2)
    have hlast : t (Nat.find hex - 1) ≤ u := by
      by_contra hc
      exact Nat.find_min hex (m := Nat.find hex - 1) (by omega) ⟨by omega, not_le.1 hc⟩
    have e : Nat.find hex - 1 + 1 = Nat.find hex := by omega
    exact ⟨Nat.find hex - 1, by omega, by omega, by rw [e]; exact lt_of_le_of_lt hlast h2, .inl ⟨hlast, by rw [e]; exact h2, hu⟩⟩
  · have hex : ∃ m, p ≤ m ∧ t n ≤ t m := ⟨n, by omega, le_rfl⟩
    obtain ⟨h1, h2⟩ := Nat.find_spec hex
    have hm : Nat.find hex ≤ n := Nat.find_min' hex ⟨by omega, le_rfl⟩
    have hp : p ≠ Nat.find hex := fun h => by rw [← h] at h2; exact absurd hne (not_lt.2 h2)
    have hlast : t (Nat.find hex - 1) < t n := by
      by_contra hc
      exact Nat.find_min hex (m := Nat.find hex - 1) (by omega) ⟨by omega, not_lt.1 hc⟩
    have e : Nat.find hex - 1 + 1 = Nat.find hex := by omega
    have heq : t (Nat.find hex) = t n := le_antisymm (ho _ _ hm (by omega)) h2
    exact ⟨Nat.find hex - 1, by omega, by omega, by rw [e, heq]; exact hlast, .inr ⟨hu, hlast, by rw [e]; exact heq⟩⟩

omit [IsStrictOrderedRing K] in
/-- The basis functions of degree zero are the indicator functions of the intervals. -/
theorem basis_zero {t : Nat → K} {p n l i : Nat} (ho : Ordered t (n + p)) {u : K}
    (hln : l < n) (hi : i < n + p)
    (h : (t l ≤ u ∧ u < t (l + 1) ∧ u < t n) ∨ (u = t n ∧ t l < t n ∧ t (l + 1) = t n)) :
    basis t (t n) 0 i u = if i = l then 1 else 0 := by
  rw [basis]
  by_cases hil : i = l
  · subst hil; rw [if_pos h, if_pos rfl]
  · rw [if_neg hil, if_neg]
    rintro (⟨a, b, c⟩ | ⟨a, b, c⟩) <;> rcases h with ⟨a', b', c'⟩ | ⟨a', b', c'⟩
    · rcases lt_or_gt_of_ne hil with h | h
      · exact absurd (lt_of_lt_of_le b (ho (i + 1) l (by omega) (by omega))) (not_lt.2 a')
      · exact absurd (lt_of_lt_of_le b' (ho (l + 1) i (by omega) (by omega))) (not_lt.2 a)
    · exact absurd c (by rw [a']; exact lt_irrefl _)
    · exact absurd c' (by rw [a]; exact lt_irrefl _)
    · rcases lt_or_gt_of_ne hil with h | h
      · exact absurd (ho (i + 1) l (by omega) (by omega)) (by rw [c]; exact not_le.2 b')
      · exact absurd (ho (l + 1) i (by omega) (by omega)) (by rw [c']; exact not_le.2 b)

omit [IsStrictOrderedRing K] in
/-- The support of the basis functions. -/
theorem basis_support {t : Nat → K} {p n l : Nat} (ho : Ordered t (n + p)) {u : K} (hln : l < n)
    (h : (t l ≤ u ∧ u < t (l + 1) ∧ u < t n) ∨ (u = t n ∧ t l < t n ∧ t (l + 1) = t n)) :
    ∀ k i, i + k < n + p → (i > l ∨ i + k < l) → basis t (t n) k i u = 0
  | 0, i, hi, hs => by rw [basis_zero ho hln (by omega) h, if_neg (by omega)]
  | k + 1, i, hi, hs => by
    rw [basis, basis_support ho hln h k i (by omega) (by omega), basis_support ho hln h k (i + 1) (by omega) (by omega)]
    ring

omit [IsStrictOrderedRing K] in
/-- One step of the algorithm of de Boor. -/
theorem sum_step {t : Nat → K} {p n l : Nat} (ho : Ordered t (n + p)) {u : K} (hln : l < n) (hlp : p ≤ l)
    (hlt : t l < t (l + 1))
    (h : (t l ≤ u ∧ u < t (l + 1) ∧ u < t n) ∨ (u = t n ∧ t l < t n ∧ t (l + 1) = t n)) {k : Nat} (hk : k < p) (c d : Nat → K)
    (hd : ∀ i, 1 ≤ i → t i < t (i + k + 1) →
      d i = (u - t i) / (t (i + k + 1) - t i) * c i + (1 - (u - t i) / (t (i + k + 1) - t i)) * c (i - 1)) :
    ∑ i ∈ Finset.range n, c i * basis t (t n) (k + 1) i u = ∑ i ∈ Finset.range n, d i * basis t (t n) k i u := by
  obtain ⟨n, rfl⟩ : ∃ m, n = m + 1 := ⟨n - 1, by omega⟩
  have z0 : basis t (t (n + 1)) k 0 u = 0 := basis_support ho hln h k 0 (by omega) (by omega)
  have zn : basis t (t (n + 1)) k (n + 1) u = 0 := basis_support ho hln h k (n + 1) (by omega) (by omega)
  have e1 : ∑ i ∈ Finset.range (n + 1), c i * basis t (t (n + 1)) (k + 1) i u =
      ∑ i ∈ Finset.range (n + 1), c i * ((u - t i) / (t (i + k + 1) - t i)) * basis t (t (n + 1)) k i u +
      ∑ i ∈ Finset.range (n + 1), c i * ((t (i + k + 2) - u) / (t (i + k + 2) - t (i + 1))) * basis t (t (n + 1)) k (i + 1) u := by
    rw [← Finset.sum_add_distrib]
    refine Finset.sum_congr rfl fun i _ => ?_
    rw [basis]; ring
  rw [e1, Finset.sum_range_succ' (fun i => c i * ((u - t i) / (t (i + k + 1) - t i)) * basis t (t (n + 1)) k i u),
    Finset.sum_range_succ (fun i => c i * ((t (i + k + 2) - u) / (t (i + k + 2) - t (i + 1))) * basis t (t (n + 1)) k (i + 1) u),
    Finset.sum_range_succ' (fun i => d i * basis t (t (n + 1)) k i u), z0, zn]
  simp only [mul_zero, add_zero]
  rw [← Finset.sum_add_distrib]
  refine Finset.sum_congr rfl fun i hi => ?_
  rw [Finset.mem_range] at hi
  by_cases hs : i + 1 > l ∨ i + 1 + k < l
  · rw [basis_support ho hln h k (i + 1) (by omega) hs]; ring
  · have hpos : t (i + 1) < t (i + 1 + k + 1) :=
      lt_of_le_of_lt (ho (i + 1) l (by omega) (by omega)) (lt_of_lt_of_le hlt (ho (l + 1) (i + 1 + k + 1) (by omega) (by omega)))
    rw [hd (i + 1) (by omega) hpos, Nat.add_sub_cancel]
    have hne : t (i + 1 + k + 1) - t (i + 1) ≠ 0 := sub_ne_zero.2 (ne_of_gt hpos)
    have e : i + k + 2 = i + 1 + k + 1 := by omega
    rw [e]
    field_simp
    ring

omit [IsStrictOrderedRing K] in
/-- The basis functions add up to one. -/
theorem sum_basis {t : Nat → K} {p n l : Nat} (ho : Ordered t (n + p)) {u : K} (hln : l < n) (hlp : p ≤ l)
    (hlt : t l < t (l + 1))
    (h : (t l ≤ u ∧ u < t (l + 1) ∧ u < t n) ∨ (u = t n ∧ t l < t n ∧ t (l + 1) = t n)) :
    ∀ k, k ≤ p → ∑ i ∈ Finset.range n, basis t (t n) k i u = 1
  | 0, _ => by
    rw [Finset.sum_congr rfl fun i hi => basis_zero ho hln (by rw [Finset.mem_range] at hi; omega) h]
    rw [Finset.sum_ite_eq' (Finset.range n) l fun _ => (1 : K), if_pos (Finset.mem_range.2 hln)]
  | k + 1, hk => by
    have e := sum_step ho hln hlp hlt h (k := k) (by omega) (fun _ => 1) (fun _ => 1) (fun i _ _ => by ring)
    simp only [one_mul] at e
    rw [e, sum_basis ho hln hlp hlt h k (by omega)]

/-- Sum of the `k` knots after knot `i`. -/
def knotSum (t : Nat → K) (k i : Nat) : K := ∑ j ∈ Finset.range k, t (i + 1 + j)

omit [LinearOrder K] [IsStrictOrderedRing K] in
theorem knotSum_succ (t : Nat → K) (k i : Nat) : knotSum t (k + 1) i = knotSum t k i + t (i + k + 1) := by
  rw [knotSum, knotSum, Finset.sum_range_succ, show i + 1 + k = i + k + 1 by omega]

omit [LinearOrder K] [IsStrictOrderedRing K] in
theorem knotSum_pred (t : Nat → K) (k i : Nat) (hi : 1 ≤ i) : knotSum t (k + 1) (i - 1) = knotSum t k i + t i := by
  obtain ⟨i, rfl⟩ : ∃ m, i = m + 1 := ⟨i - 1, by omega⟩
  rw [knotSum, knotSum, Finset.sum_range_succ', Nat.add_sub_cancel, show i + 1 + 0 = i + 1 by omega]
  congr 1
  refine Finset.sum_congr rfl fun j _ => ?_
  rw [show i + 1 + (j + 1) = i + 1 + 1 + j by omega]

omit [IsStrictOrderedRing K] in
theorem sum_knotSum {t : Nat → K} {p n l : Nat} (ho : Ordered t (n + p)) {u : K} (hln : l < n) (hlp : p ≤ l)
    (hlt : t l < t (l + 1))
    (h : (t l ≤ u ∧ u < t (l + 1) ∧ u < t n) ∨ (u = t n ∧ t l < t n ∧ t (l + 1) = t n)) :
    ∀ k, k ≤ p → ∑ i ∈ Finset.range n, (knotSum t k i + ((p : K) - (k : K)) * u) * basis t (t n) k i u = p * u
  | 0, _ => by
    have e := sum_basis ho hln hlp hlt h 0 (by omega)
    rw [Finset.sum_congr rfl fun i _ => show (knotSum t 0 i + ((p : K) - ((0 : Nat) : K)) * u) * basis t (t n) 0 i u =
      p * u * basis t (t n) 0 i u by rw [knotSum]; simp, ← Finset.mul_sum, e, mul_one]
  | k + 1, hk => by
    rw [← sum_knotSum ho hln hlp hlt h k (by omega)]
    refine sum_step ho hln hlp hlt h (by omega) (fun i => knotSum t (k + 1) i + ((p : K) - ((k + 1 : Nat) : K)) * u)
      (fun i => knotSum t k i + ((p : K) - (k : K)) * u) fun i hi hlt => ?_
    have hne : t (i + k + 1) - t i ≠ 0 := sub_ne_zero.2 (ne_of_gt hlt)
    beta_reduce
    rw [knotSum_pred t k i hi, knotSum_succ]
    push_cast
    field_simp
    ring

/-- A spline whose coefficients are an affine function of the means of the knots is the affine function. -/
theorem affine_curve {t : Nat → K} {p n : Nat} (ho : Ordered t (n + p)) (hp : 0 < p) (hpn : p < n) {u : K} (hl : t p ≤ u)
    (hu : u ≤ t n) (hne : t p < t n) (a b : K) :
    ∑ i ∈ Finset.range n, (a + b * (knotSum t p i / p)) * basis t (t n) p i u = a + b * u := by
  obtain ⟨l, h1, h2, h3, h4⟩ := exists_interval ho hpn hl hu hne
  have e1 := sum_basis ho h2 h1 h3 h4 p le_rfl
  have e2 := sum_knotSum ho h2 h1 h3 h4 p le_rfl
  simp only [sub_self, zero_mul, add_zero] at e2
  have hp' : (p : K) ≠ 0 := Nat.cast_ne_zero.2 (by omega)
  calc _ = a * ∑ i ∈ Finset.range n, basis t (t n) p i u + b / p * ∑ i ∈ Finset.range n, knotSum t p i * basis t (t n) p i u := by
        rw [Finset.mul_sum, Finset.mul_sum, ← Finset.sum_add_distrib]
        refine Finset.sum_congr rfl fun i _ => ?_
        field_simp
    _ = _ := by rw [e1, e2]; field_simp

end QuESo.BSplineSpec
