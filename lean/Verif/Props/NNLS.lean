import Verif.Proofs.NNLSFinal
import Mathlib.Analysis.Real.Sqrt
import Mathlib.Data.Rat.Cast.Order

/-!
# C85: the solver of non-negative least-squares problems

`solveNNLS` gives the solution, the returned value and the mode (1: solved, 2: no rows or no columns, 3: the limit on the
number of iterations is reached; a message is printed for 2 and 3).  `junk` is what memory that is not initialised contains.
-/
namespace QuESo.NNLS
variable {K : Type _} [Field K] [LinearOrder K] [IsStrictOrderedRing K]

theorem getD_solution (xf : Nat → K) (n : Nat) {j : Nat} (h1 : 1 ≤ j) (h2 : j ≤ n) :
    vecFun ((List.range n).map fun j => xf (j + 1)) j = xf j := by
  obtain ⟨i, rfl⟩ : ∃ i, j = i + 1 := ⟨j - 1, by omega⟩
  have hi : i < n := by omega
  simp [vecFun, hi]

theorem vecFun_nonneg {n : Nat} {y : List K} (hl : y.length = n) (h : ∀ w ∈ y, 0 ≤ w) (j : Nat) : 0 ≤ vecFun y j := by
  unfold vecFun
  cases e : y[j - 1]? with
  | none => simp
  | some w => exact h w (List.mem_of_getElem? e)

/-- **C85** For every matrix with columns and rows and every right-hand side the solver ends, with a non-negative solution in
which not more numbers than rows differ from zero.  The returned value is never larger than the norm of the residual.  Unless
the limit on the number of iterations is reached it is the norm of the residual, and no other non-negative numbers give a
smaller residual. -/
theorem C85_solution {sqrt : K → K} (hs : IsSqrt sqrt) (junk : Junk K) {A : List (List K)} {b : List K} (hA : A ≠ []) (hb : b ≠ []) :
    ∃ x r mode, solveNNLS sqrt junk A b = some (x, r, mode) ∧ Feasible A x ∧ (x.filter fun w => w ≠ 0).length ≤ b.length ∧
      0 ≤ r ∧ r ^ 2 ≤ squares A b x ∧ (mode = 1 ∨ mode = 3) ∧
      (mode = 1 → r ^ 2 = squares A b x ∧ ∀ y, Feasible A y → squares A b x ≤ squares A b y) := by
  obtain ⟨xf, r, md, e, h⟩ := solveNNLS_spec hs junk hA hb
  have hl : ((List.range A.length).map fun j => xf (j + 1)).length = A.length := by simp
  have hsq : squares A b ((List.range A.length).map fun j => xf (j + 1)) = sq b.length A.length (colFun A) (vecFun b) xf := by
    rw [squares_eq _ _ _ hl]
    exact sq_congr _ _ fun j h1 h2 => getD_solution xf _ h1 h2
  refine ⟨_, r, md, e, ⟨hl, ?_⟩, ?_, h.value, ?_, h.mode, fun hm => ⟨?_, fun y hy => ?_⟩⟩
  · intro w hw
    obtain ⟨j, hj, rfl⟩ := List.mem_map.1 hw
    exact h.nonneg _ (by omega) (List.mem_range.1 hj)
  · rw [List.filter_map, List.length_map]
    refine le_trans ?_ h.count
    rw [← List.toFinset_card_of_nodup (List.nodup_range.filter _)]
    refine Finset.card_le_card_of_injOn (· + 1) ?_ (fun a _ b _ hab => Nat.succ_injective hab)
    intro i hi
    rw [List.coe_toFinset, Set.mem_setOf_eq, List.mem_filter, List.mem_range] at hi
    rw [Finset.coe_filter, Set.mem_setOf_eq, Finset.mem_Icc]
    exact ⟨⟨Nat.succ_pos i, hi.1⟩, by simpa using hi.2⟩
  · rw [hsq, pow_two]; exact h.low
  · rw [hsq, pow_two]; exact h.exact hm
  · rw [hsq, squares_eq _ _ _ hy.1]
    have := h.best hm (vecFun y) fun j _ _ => vecFun_nonneg hy.1 hy.2 j
    exact le_trans (le_add_of_nonneg_right (sq_nonneg' _ _ _)) this

/-- **C85** Without rows or columns nothing is solved: the returned value is 10^8, the solution is empty. -/
theorem C85_dimensions (sqrt : K → K) (junk : Junk K) {A : List (List K)} {b : List K} (h : A = [] ∨ b = []) :
    solveNNLS sqrt junk A b = some ([], 10 ^ 8, 2) := by
  rcases h with rfl | rfl
  · simp [solveNNLS]
  · simp [solveNNLS]

omit [LinearOrder K] [IsStrictOrderedRing K] in
theorem sq_diff {A : List (List K)} {b x y : List K} (hx : x.length = A.length) (hy : y.length = A.length) :
    sq b.length A.length (colFun A) (fun _ => 0) (fun j => vecFun y j - vecFun x j) =
      ((List.range b.length).map fun k => (residualAt A b y k - residualAt A b x k) ^ 2).sum := by
  unfold sq
  rw [sum_shift, ← List.sum_toFinset _ List.nodup_range, List.toFinset_range]
  refine Finset.sum_congr rfl fun k _ => ?_
  have e : ∀ z : List K, z.length = A.length → residualAt A b z k =
      ∑ j ∈ Finset.Icc 1 A.length, vecFun z j * colFun A j (k + 1) - b.getD k 0 := by
    intro z hz
    unfold residualAt
    rw [zip_sum _ 0 [] z A hz, sum_shift]
    simp [vecFun, colFun]
  rw [e x hx, e y hy]
  simp only [sub_mul, Finset.sum_sub_distrib]
  ring

/-- **C85** The fit is unique: other non-negative numbers with the same residual give the same product with the matrix. -/
theorem C85_unique {sqrt : K → K} (hs : IsSqrt sqrt) {junk : Junk K} {A : List (List K)} {b : List K} {x : List K} {r : K}
    (h : solveNNLS sqrt junk A b = some (x, r, 1)) {y : List K} (hy : Feasible A y) (he : squares A b y ≤ squares A b x) :
    ∀ k, k < b.length → residualAt A b y k = residualAt A b x k := by
  have hA : A ≠ [] := by
    rintro rfl
    rw [C85_dimensions sqrt junk (Or.inl rfl)] at h
    simp at h
  have hb : b ≠ [] := by
    rintro rfl
    rw [C85_dimensions sqrt junk (Or.inr rfl)] at h
    simp at h
  obtain ⟨xf, r', md, e, hr⟩ := solveNNLS_spec hs junk hA hb
  rw [e] at h
  simp only [Option.some.injEq, Prod.mk.injEq] at h
  obtain ⟨hx, -, hm⟩ := h
  have hl : x.length = A.length := by rw [← hx]; simp
  have hxf : ∀ j, 1 ≤ j → j ≤ A.length → xf j = vecFun x j := fun j h1 h2 => by rw [← hx, getD_solution xf _ h1 h2]
  have hbest := hr.best hm (vecFun y) fun j _ _ => vecFun_nonneg hy.1 hy.2 j
  rw [sq_congr _ _ hxf, ← squares_eq _ _ _ hl, ← squares_eq _ _ _ hy.1,
    sq_congr (y := fun j => vecFun y j - vecFun x j) _ _ (fun j h1 h2 => by rw [hxf j h1 h2]), sq_diff hl hy.1] at hbest
  have h0 : ((List.range b.length).map fun k => (residualAt A b y k - residualAt A b x k) ^ 2).sum ≤ 0 := by linarith
  intro k hk
  rw [← List.sum_toFinset _ List.nodup_range, List.toFinset_range] at h0
  have := Finset.single_le_sum (f := fun k => (residualAt A b y k - residualAt A b x k) ^ 2) (fun i _ => sq_nonneg _)
    (Finset.mem_range.2 hk)
  have h2 : (residualAt A b y k - residualAt A b x k) ^ 2 = 0 := le_antisymm (this.trans h0) (sq_nonneg _)
  exact sub_eq_zero.1 (pow_eq_zero_iff (two_ne_zero) |>.1 h2)

/-- **C85** If non-negative numbers solve the equations, the solver finds such numbers (unless it reaches the limit on the
number of iterations), and returns zero. -/
theorem C85_exact {sqrt : K → K} (hs : IsSqrt sqrt) {junk : Junk K} {A : List (List K)} {b : List K} {x : List K} {r : K}
    (h : solveNNLS sqrt junk A b = some (x, r, 1)) {y : List K} (hy : Feasible A y) (h0 : ∀ k, k < b.length → residualAt A b y k = 0) :
    r = 0 ∧ ∀ k, k < b.length → residualAt A b x k = 0 := by
  have hA : A ≠ [] := by
    rintro rfl
    rw [C85_dimensions sqrt junk (Or.inl rfl)] at h
    simp at h
  have hb : b ≠ [] := by
    rintro rfl
    rw [C85_dimensions sqrt junk (Or.inr rfl)] at h
    simp at h
  obtain ⟨x', r', md, e, hf, -, -, -, -, hm⟩ := C85_solution hs junk hA hb
  rw [e] at h
  simp only [Option.some.injEq, Prod.mk.injEq] at h
  obtain ⟨rfl, rfl, rfl⟩ := h
  obtain ⟨h1, h2⟩ := hm rfl
  have hz : squares A b y = 0 := by
    unfold squares
    rw [List.sum_eq_zero]
    intro v hv
    obtain ⟨k, hk, rfl⟩ := List.mem_map.1 hv
    rw [h0 k (List.mem_range.1 hk)]
    simp
  have hx0 : 0 ≤ squares A b x' := by
    rw [squares_eq _ _ _ hf.1]; exact sq_nonneg' _ _ _
  have := h2 y hy
  rw [hz] at this
  refine ⟨?_, fun k hk => ?_⟩
  · rw [le_antisymm this hx0] at h1
    exact pow_eq_zero_iff (two_ne_zero) |>.1 h1
  · rw [← C85_unique hs e hy (by rw [hz]; exact hx0) k hk]
    exact h0 k hk

/-- **C85** With one equation the limit on the number of iterations is never reached. -/
theorem C85_one_row {sqrt : K → K} (hs : IsSqrt sqrt) (junk : Junk K) {A : List (List K)} (hA : A ≠ []) (v : K) :
    ∃ x r, solveNNLS sqrt junk A [v] = some (x, r, 1) := by
  obtain ⟨n, hn⟩ : ∃ n, A.length = n + 1 := ⟨A.length - 1, by have := List.length_pos_iff.2 hA; omega⟩
  obtain ⟨x, r, md, e, -⟩ := solveNNLS_spec hs junk hA (b := [v]) (by simp)
  refine ⟨(List.range A.length).map fun j => x (j + 1), r, e.trans ?_⟩
  have h := e
  unfold solveNNLS at h
  rw [if_neg (by simp [hn])] at h
  simp only [List.length_singleton, gt_iff_lt, zero_lt_one, if_true, nnls, Option.map_map, Option.map_eq_some_iff] at h
  obtain ⟨st, h1, h2⟩ := h
  rw [show A.length * 5 + 1 = (A.length * 5 - 1) + 2 by omega] at h1
  obtain ⟨k, hk⟩ : ∃ k, A.length * 5 = k + 1 := ⟨A.length * 5 - 1, by omega⟩
  rw [hk] at h1
  have := main_one_row hs junk.up rfl (start_inv 1 A.length _ _ _ _ _ _) h1
  simp only [Function.comp, Prod.mk.injEq] at h2
  rw [← h2.2.2, this]

/-! ### Examples -/

/-- Beside `C85_solution`: there is such a square root. -/
example : IsSqrt Real.sqrt := fun x hx => ⟨Real.sqrt_nonneg x, Real.mul_self_sqrt hx⟩

/-- Memory that is not initialised. -/
def junkQ : Junk ℚ := ⟨fun _ => 7, fun _ => 8, fun _ => 9, fun _ => 10, 11⟩

/-- The square roots that the following examples need. -/
def sqrtQ (x : ℚ) : ℚ := if x = 25 / 16 then 5 / 4 else if x = 16 then 4 else if x = 4 then 2 else if x = 16 / 25 then 4 / 5 else 0

/-- Beside `C85_solution`: a fit with a residual; one in which a column is not used; one in which the first column is taken and
removed again. -/
example : solveNNLS sqrtQ junkQ [[3, 4]] [5, 0] = some ([3 / 5], 4, 1) ∧
    solveNNLS sqrtQ junkQ [[3, 4], [-3, -4]] [5, 0] = some ([3 / 5, 0], 4, 1) ∧
    solveNNLS sqrtQ junkQ [[4, -3], [1, 0]] [6, 2] = some ([0, 6], 2, 1) := by decide +kernel

/-- Beside `C85_unique` and `C85_exact`: two columns of which one is needed. -/
example (junk : Junk ℝ) : solveNNLS Real.sqrt junk [[1], [-1]] [2] = some ([2, 0], 0, 1) ∧ Feasible [[1], [(-1 : ℝ)]] [3, 1] ∧
    ∀ k, k < [(2 : ℝ)].length → residualAt [[1], [(-1 : ℝ)]] [2] [3, 1] k = 0 := by
  refine ⟨?_, by simp [Feasible], ?_⟩
  · norm_num [solveNNLS, nnls, main, start, upto, List.range', put, select, dual, findMax, addUp, h1, h2, copy, accept, solve, second,
      stepSize, rnorm, List.range_succ]
  · intro k hk
    have : k = 0 := by simpa using hk
    subst this
    norm_num [residualAt]

end QuESo.NNLS
