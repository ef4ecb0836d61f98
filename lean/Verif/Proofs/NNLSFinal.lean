import Verif.Proofs.NNLSLoop

/-!
# The result of the solver of non-negative least-squares problems
-/
namespace QuESo.NNLS
open Finset
variable {K : Type _} [Field K] [LinearOrder K] [IsStrictOrderedRing K]

/-- The sum of squares of `A y - b`. -/
def sq (m n : Nat) (A : Nat → Nat → K) (b y : Nat → K) : K :=
  ∑ l ∈ Icc 1 m, (∑ j ∈ Icc 1 n, y j * A j l - b l) * (∑ j ∈ Icc 1 n, y j * A j l - b l)

omit [LinearOrder K] [IsStrictOrderedRing K] in
theorem sq_gram (m n : Nat) (A : Nat → Nat → K) (b y : Nat → K) :
    sq m n A b y = ∑ i ∈ Icc 1 n, ∑ j ∈ Icc 1 n, y i * y j * ip m (A i) (A j) - 2 * ∑ j ∈ Icc 1 n, y j * ip m (A j) b + ip m b b := by
  have h1 : ∑ i ∈ Icc 1 n, ∑ j ∈ Icc 1 n, y i * y j * ip m (A i) (A j) =
      ∑ l ∈ Icc 1 m, (∑ i ∈ Icc 1 n, y i * A i l) * (∑ j ∈ Icc 1 n, y j * A j l) := by
    simp only [ip, mul_sum, sum_mul]
    rw [sum_comm' (t' := Icc 1 n) (s' := fun _ => Icc 1 n) (by intros; tauto)]
    rw [sum_comm]
    conv_rhs => rw [sum_comm]
    refine sum_congr rfl fun i _ => ?_
    conv_rhs => rw [sum_comm]
    refine sum_congr rfl fun j _ => sum_congr rfl fun l _ => ?_
    ring
  have h2 : ∑ j ∈ Icc 1 n, y j * ip m (A j) b = ∑ l ∈ Icc 1 m, (∑ j ∈ Icc 1 n, y j * A j l) * b l := by
    simp only [ip, mul_sum, sum_mul]
    rw [sum_comm]
    refine sum_congr rfl fun l _ => sum_congr rfl fun j _ => ?_
    ring
  rw [h1, h2, mul_sum, ip, sq, ← sum_sub_distrib, ← sum_add_distrib]
  refine sum_congr rfl fun l _ => ?_
  ring

omit [LinearOrder K] [IsStrictOrderedRing K] in
theorem sq_same {m n : Nat} {A A' : Nat → Nat → K} {b b' : Nat → K} (h : Same m n A b A' b') (y : Nat → K) :
    sq m n A b y = sq m n A' b' y := by
  rw [sq_gram, sq_gram, h.2.2]
  congr 2
  · refine sum_congr rfl fun i hi => sum_congr rfl fun j hj => ?_
    rw [mem_Icc] at hi hj
    rw [h.1 i j hi.1 hi.2 hj.1 hj.2]
  · congr 1
    refine sum_congr rfl fun i hi => ?_
    rw [mem_Icc] at hi
    rw [h.2.1 i hi.1 hi.2]

/-- A sum over the columns, in the order of the index. -/
theorem Core.sum_index {m n : Nat} {A : Nat → Nat → K} {b : Nat → K} {s : St K} (h : Core m n A b s) (f : Nat → K) :
    ∑ j ∈ Icc 1 n, f j = ∑ p ∈ Icc 1 n, f (s.index p) := by
  refine (sum_bij (fun p _ => s.index p) ?_ ?_ ?_ ?_).symm
  · intro p hp
    rw [mem_Icc] at hp ⊢
    exact h.range p hp.1 hp.2
  · intro p hp q hq e
    rw [mem_Icc] at hp hq
    exact h.inj p q hp.1 hp.2 hq.1 hq.2 e
  · intro j hj
    rw [mem_Icc] at hj
    obtain ⟨p, h1, h2, h3⟩ := h.onto hj.1 hj.2
    exact ⟨p, mem_Icc.2 ⟨h1, h2⟩, h3⟩
  · intro p _; rfl

/-- The product of the matrix and `x` needs the columns in the set P only. -/
theorem Core.product {m n : Nat} {A : Nat → Nat → K} {b : Nat → K} {s : St K} (h : Core m n A b s) (l : Nat) :
    ∑ j ∈ Icc 1 n, s.x j * s.a j l = ∑ p ∈ Icc 1 s.nsetp, s.a (s.index p) l * s.x (s.index p) := by
  rw [h.sum_index, ← sum_subset (Icc_subset_Icc_right h.cols)]
  · exact sum_congr rfl fun _ _ => mul_comm _ _
  · intro p hp hp'
    rw [mem_Icc] at hp hp'
    rw [h.zero p (by omega) hp.2, zero_mul]

theorem Core.product_low {m n : Nat} {A : Nat → Nat → K} {b : Nat → K} {s : St K} (h : Core m n A b s) {l : Nat} (h1 : s.nsetp < l)
    (h2 : l ≤ m) : ∑ j ∈ Icc 1 n, s.x j * s.a j l = 0 := by
  rw [h.product]
  refine sum_eq_zero fun p hp => ?_
  rw [mem_Icc] at hp
  rw [h.low p hp.1 hp.2 l (by omega) h2, zero_mul]

omit [LinearOrder K] [IsStrictOrderedRing K] in
theorem sum_at {k m : Nat} (h : k ≤ m) (f : Nat → K) : ∑ l ∈ Icc 1 m, f l = ∑ l ∈ Icc 1 k, f l + ∑ l ∈ Icc (k + 1) m, f l := by
  rw [← sum_union]
  · refine sum_congr ?_ fun _ _ => rfl
    ext l
    simp only [mem_union, mem_Icc]
    omega
  · rw [disjoint_left]
    intro l h1 h2
    rw [mem_Icc] at h1 h2
    omega

theorem Core.sq_eq {m n : Nat} {A : Nat → Nat → K} {b : Nat → K} {s : St K} (h : Core m n A b s) :
    sq m n A b s.x = ∑ l ∈ Icc 1 s.nsetp, (∑ j ∈ Icc 1 n, s.x j * s.a j l - s.b l) * (∑ j ∈ Icc 1 n, s.x j * s.a j l - s.b l) +
      ∑ l ∈ Icc s.npp1 m, s.b l * s.b l := by
  rw [sq_same h.same, sq, sum_at h.rows, h.npp1]
  congr 1
  refine sum_congr rfl fun l hl => ?_
  rw [mem_Icc] at hl
  rw [h.product_low (by omega) hl.2]
  ring

theorem rnorm_spec {sqrt : K → K} (hs : IsSqrt sqrt) (m : Nat) (s : St K) :
    0 ≤ rnorm sqrt m s ∧ rnorm sqrt m s * rnorm sqrt m s = ∑ l ∈ Icc s.npp1 m, s.b l * s.b l := by
  have e : (if s.npp1 ≤ m then addUp 0 s.npp1 m fun i => s.b i * s.b i else 0) = ∑ l ∈ Icc s.npp1 m, s.b l * s.b l := by
    split_ifs with h
    · rw [addUp_eq, zero_add]
    · rw [Icc_eq_empty (by omega), sum_empty]
  unfold rnorm
  rw [e]
  exact hs _ (sum_nonneg fun l _ => mul_self_nonneg _)

/-- What the solver guarantees. -/
structure Result (m n : Nat) (A : Nat → Nat → K) (b x : Nat → K) (r : K) (md : Nat) : Prop where
  nonneg : ∀ j, 1 ≤ j → j ≤ n → 0 ≤ x j
  count : ((Icc 1 n).filter fun j => x j ≠ 0).card ≤ m
  value : 0 ≤ r
  mode : md = 1 ∨ md = 3
  low : r * r ≤ sq m n A b x
  exact : md = 1 → r * r = sq m n A b x
  best : md = 1 → ∀ y, (∀ j, 1 ≤ j → j ≤ n → 0 ≤ y j) → sq m n A b x + sq m n A (fun _ => 0) (fun j => y j - x j) ≤ sq m n A b y

theorem Final.result {sqrt : K → K} (hs : IsSqrt sqrt) {m n : Nat} {A : Nat → Nat → K} {b : Nat → K} {s : St K} {md : Nat}
    (h : Final m n A b s md) : Result m n A b s.x (rnorm sqrt m s) md := by
  obtain ⟨C, hn, hmd, hsol, hdual⟩ := id h
  obtain ⟨r1, r2⟩ := rnorm_spec hs m s
  have hnp := C.npp1
  have hzero : md = 1 → ∀ l, 1 ≤ l → l ≤ s.nsetp → ∑ j ∈ Icc 1 n, s.x j * s.a j l = s.b l := fun hm l l1 l2 => by
    rw [C.product, hsol hm l l1 l2]
  refine ⟨?_, ?_, r1, hmd, ?_, ?_, ?_⟩
  · intro j j1 j2
    obtain ⟨p, p1, p2, rfl⟩ := C.onto j1 j2
    by_cases hp : p ≤ s.nsetp
    · exact hn p p1 hp
    · exact (C.zero p (by omega) p2).ge
  · have hsub : ((Icc 1 n).filter fun j => s.x j ≠ 0) ⊆ (Icc 1 s.nsetp).image s.index := by
      intro j hj
      rw [mem_filter, mem_Icc] at hj
      obtain ⟨p, p1, p2, rfl⟩ := C.onto hj.1.1 hj.1.2
      refine mem_image.2 ⟨p, mem_Icc.2 ⟨p1, ?_⟩, rfl⟩
      by_contra hp
      exact hj.2 (C.zero p (by omega) p2)
    refine (card_le_card hsub).trans (card_image_le.trans ?_)
    rw [Nat.card_Icc]
    have := C.rows
    omega
  · rw [r2, C.sq_eq]
    exact le_add_of_nonneg_left (sum_nonneg fun l _ => mul_self_nonneg _)
  · intro hm
    rw [r2, C.sq_eq, sum_eq_zero (s := Icc 1 s.nsetp) fun l hl => ?_, zero_add]
    rw [mem_Icc] at hl
    rw [hzero hm l hl.1 hl.2, sub_self, zero_mul]
  · intro hm y hy
    have hsame0 : Same m n A (fun _ => 0) s.a (fun _ => 0) := ⟨C.same.1, fun i _ _ => by simp [ip], by simp [ip]⟩
    rw [sq_same C.same, sq_same C.same, sq_same hsame0]
    -- the residual is orthogonal to the columns in the set P and has no acute angle with the others
    have key : ∑ l ∈ Icc 1 m, (∑ j ∈ Icc 1 n, (y j - s.x j) * s.a j l) * (s.b l - ∑ j ∈ Icc 1 n, s.x j * s.a j l) ≤ 0 := by
      have e1 : ∑ l ∈ Icc 1 m, (∑ j ∈ Icc 1 n, (y j - s.x j) * s.a j l) * (s.b l - ∑ j ∈ Icc 1 n, s.x j * s.a j l) =
          ∑ l ∈ Icc s.npp1 m, (∑ j ∈ Icc 1 n, (y j - s.x j) * s.a j l) * s.b l := by
        rw [sum_at C.rows, sum_eq_zero fun l hl => ?_, zero_add, ← hnp]
        · refine sum_congr rfl fun l hl => ?_
          rw [mem_Icc] at hl
          rw [C.product_low (l := l) (by omega) hl.2, sub_zero]
        · rw [mem_Icc] at hl
          rw [hzero hm l hl.1 hl.2, sub_self, mul_zero]
      have e2 : ∑ l ∈ Icc s.npp1 m, (∑ j ∈ Icc 1 n, (y j - s.x j) * s.a j l) * s.b l =
          ∑ j ∈ Icc 1 n, (y j - s.x j) * ∑ l ∈ Icc s.npp1 m, s.a j l * s.b l := by
        simp only [sum_mul, mul_sum]
        rw [sum_comm]
        exact sum_congr rfl fun j _ => sum_congr rfl fun l _ => by ring
      rw [e1, e2, C.sum_index]
      refine sum_nonpos fun p hp => ?_
      rw [mem_Icc] at hp
      by_cases hp' : p ≤ s.nsetp
      · rw [sum_eq_zero (s := Icc s.npp1 m) fun l hl => ?_, mul_zero]
        rw [mem_Icc] at hl
        rw [C.low p hp.1 hp' l (by omega) hl.2, zero_mul]
      · rw [C.zero p (by omega) hp.2, sub_zero]
        obtain ⟨i1, i2⟩ := C.range p hp.1 hp.2
        rcases hdual hm with hd | hd
        · rw [Icc_eq_empty (by omega), sum_empty, mul_zero]
        · exact mul_nonpos_of_nonneg_of_nonpos (hy _ i1 i2) (hd p (by omega) hp.2)
    have e3 : sq m n s.a s.b y = sq m n s.a s.b s.x + sq m n s.a (fun _ => 0) (fun j => y j - s.x j) -
        2 * ∑ l ∈ Icc 1 m, (∑ j ∈ Icc 1 n, (y j - s.x j) * s.a j l) * (s.b l - ∑ j ∈ Icc 1 n, s.x j * s.a j l) := by
      unfold sq
      rw [mul_sum, ← sum_add_distrib, ← sum_sub_distrib]
      refine sum_congr rfl fun l _ => ?_
      simp only [sub_mul, sum_sub_distrib]
      ring
    rw [e3]
    linarith

theorem start_inv (m n : Nat) (A : Nat → Nat → K) (b x zz w : Nat → K) (index : Nat → Nat) :
    MainInv m n A b (start n A b x zz w index) := by
  have hfold : ∀ (L : List Nat) (x : Nat → K) (index : Nat → Nat),
      L.foldl (fun (r : (Nat → K) × (Nat → Nat)) i => (put r.1 i 0, put r.2 i i)) (x, index) =
        (L.foldl (fun f i => put f i 0) x, L.foldl (fun f i => put f i i) index) := by
    intro L
    induction L with
    | nil => intros; rfl
    | cons a L ih => intro x index; exact ih _ _
  have hx : ∀ k, 1 ≤ k → k ≤ n → (start n A b x zz w index).x k = 0 := by
    intro k k1 k2
    unfold start
    simp only [hfold]
    rw [fold_upto (fun _ _ => (0 : K)), if_pos ⟨k1, k2⟩]
  have hi : ∀ k, 1 ≤ k → k ≤ n → (start n A b x zz w index).index k = k := by
    intro k k1 k2
    unfold start
    simp only [hfold]
    rw [fold_upto (fun i _ => i), if_pos ⟨k1, k2⟩]
  have h0 : (start n A b x zz w index).nsetp = 0 := rfl
  refine ⟨⟨?_, ?_, rfl, rfl, Nat.zero_le _, Nat.zero_le _, Same.refl _ _ _ _, ?_, ?_, ?_⟩, ?_, ?_⟩
  · intro p p1 p2; rw [hi p p1 p2]; exact ⟨p1, p2⟩
  · intro p q p1 p2 q1 q2 e; rwa [hi p p1 p2, hi q q1 q2] at e
  · intro p p1 p2; omega
  · intro p p1 p2; omega
  · intro p p1 p2; rw [hi p (by omega) p2, hx p (by omega) p2]
  · intro p p1 p2; omega
  · intro p p1 p2; omega

theorem nnls_spec {sqrt : K → K} (hs : IsSqrt sqrt) (junk : Junk K) (m n : Nat) (A : Nat → Nat → K) (b : Nat → K) :
    ∃ x r md, nnls sqrt junk m n A b = some (x, r, md) ∧ Result m n A b x r md := by
  obtain ⟨s, md, e, hf⟩ := main_spec hs junk.up (n * 5 + 1) (n * 5) _ (by omega) (start_inv m n A b junk.x junk.zz junk.w junk.index)
  refine ⟨s.x, rnorm sqrt m s, md, ?_, hf.result hs⟩
  unfold nnls
  rw [e]
  rfl

/-- With one row, one column is enough. -/
theorem main_one_row {sqrt : K → K} (hs : IsSqrt sqrt) (junk : K) {n : Nat} {A : Nat → Nat → K} {b : Nat → K} {fuel left : Nat} {s : St K}
    {r : St K × Nat} (h0 : s.nsetp = 0) (I : MainInv 1 n A b s) (h : main sqrt junk 1 n (fuel + 2) (left + 1) s = some r) : r.2 = 1 := by
  rw [main] at h
  split_ifs at h with hend
  · cases h; rfl
  · have C := I.core
    have hd : MainInv 1 n A b (dual 1 n s) :=
      ⟨⟨C.range, C.inj, C.iz1, C.npp1, C.rows, C.cols, C.same, C.low, C.diag, C.zero⟩, I.pos, I.sol⟩
    have hnp := C.npp1
    rcases select_spec hs junk (m := 1) (n := n) (s := dual 1 n s) (show 1 ≤ s.npp1 by omega) (show s.npp1 ≤ 1 by omega)
      (fun iz h1 h2 => dual_w C h1 h2) n with ⟨e, -⟩ | ⟨s', iz, j, up, T, e, hc⟩
    · rw [e] at h
      cases h; rfl
    · rw [e] at h
      obtain ⟨C1, a1, a2, a3, a4, a5⟩ := accept_spec hd (show s.npp1 ≤ 1 by omega) hc
      obtain ⟨zz, e2, -, htop⟩ := solve_spec C1 a1
      have hN : (accept 1 n s' iz j up).nsetp = 1 := by rw [a2]; show s.nsetp + 1 = 1; omega
      have h2 : (stepSize (solve (accept 1 n s' iz j up))).1 = 2 := by
        rw [e2]
        unfold stepSize
        have hz : 0 < zz 1 := by
          have := htop (by omega)
          rw [hN] at this
          rw [this]
          have h5 := a5
          rw [show (dual 1 n s).nsetp = 0 from h0] at h5
          exact h5
        simp only [hN]
        simp [upto, List.range', not_le.2 hz]
      have e3 : second sqrt 1 n (left + 1) (solve (accept 1 n s' iz j up)) = some (.done left { solve (accept 1 n s' iz j up) with
          x := (upto 1 (solve (accept 1 n s' iz j up)).nsetp).foldl
            (fun x ip => put x ((solve (accept 1 n s' iz j up)).index ip) ((solve (accept 1 n s' iz j up)).zz ip))
            (solve (accept 1 n s' iz j up)).x }) := by
        rw [second]
        simp only [if_pos h2]
      simp only [e3] at h
      rw [main, if_pos] at h
      · cases h; rfl
      · right
        show (solve (accept 1 n s' iz j up)).nsetp ≥ 1
        rw [e2]
        exact hN.ge

/-! ## Lists -/

omit [LinearOrder K] [IsStrictOrderedRing K] in
theorem zip_sum {α β : Type*} (g : α → β → K) (d : α) (e : β) (x : List α) (A : List β) (h : x.length = A.length) :
    (List.zipWith g x A).sum = ∑ i ∈ range A.length, g (x.getD i d) (A.getD i e) := by
  induction A generalizing x with
  | nil => simp
  | cons a A ih =>
    cases x with
    | nil => simp at h
    | cons w x =>
      simp only [List.length_cons, Nat.add_right_cancel_iff] at h
      rw [List.zipWith_cons_cons, List.sum_cons, ih x h, List.length_cons, sum_range_succ']
      simp [add_comm]

omit [Field K] [LinearOrder K] [IsStrictOrderedRing K] in
theorem sum_shift [AddCommMonoid K] (n : Nat) (f : Nat → K) : ∑ j ∈ Icc 1 n, f j = ∑ i ∈ range n, f (i + 1) := by
  rw [range_eq_Ico, sum_Ico_add' f 0 n 1]
  exact sum_congr (by ext; simp only [mem_Icc, mem_Ico]; omega) fun _ _ => rfl

/-- The matrix as function. -/
def colFun (A : List (List K)) : Nat → Nat → K := fun j l => ((A[j - 1]?.getD [])[l - 1]?).getD 0

/-- A vector as function. -/
def vecFun (b : List K) : Nat → K := fun l => (b[l - 1]?).getD 0

omit [LinearOrder K] [IsStrictOrderedRing K] in
theorem squares_eq (A : List (List K)) (b x : List K) (h : x.length = A.length) :
    squares A b x = sq b.length A.length (colFun A) (vecFun b) (vecFun x) := by
  unfold squares sq
  rw [sum_shift, ← List.sum_toFinset _ List.nodup_range, List.toFinset_range]
  refine sum_congr rfl fun k _ => ?_
  have : residualAt A b x k = ∑ j ∈ Icc 1 A.length, vecFun x j * colFun A j (k + 1) - vecFun b (k + 1) := by
    unfold residualAt
    rw [zip_sum _ 0 [] x A h, sum_shift]
    simp [vecFun, colFun]
  rw [this, pow_two]

omit [LinearOrder K] [IsStrictOrderedRing K] in
theorem sq_congr {m n : Nat} (A : Nat → Nat → K) (b : Nat → K) {x y : Nat → K} (h : ∀ j, 1 ≤ j → j ≤ n → x j = y j) :
    sq m n A b x = sq m n A b y := by
  unfold sq
  refine sum_congr rfl fun l _ => ?_
  have : ∑ j ∈ Icc 1 n, x j * A j l = ∑ j ∈ Icc 1 n, y j * A j l := by
    refine sum_congr rfl fun j hj => ?_
    rw [mem_Icc] at hj
    rw [h j hj.1 hj.2]
  rw [this]

theorem sq_nonneg' {m n : Nat} (A : Nat → Nat → K) (b x : Nat → K) : 0 ≤ sq m n A b x := sum_nonneg fun _ _ => mul_self_nonneg _

theorem solveNNLS_spec {sqrt : K → K} (hs : IsSqrt sqrt) (junk : Junk K) {A : List (List K)} {b : List K} (hA : A ≠ []) (hb : b ≠ []) :
    ∃ xf r md, solveNNLS sqrt junk A b = some ((List.range A.length).map fun j => xf (j + 1), r, md) ∧
      Result b.length A.length (colFun A) (vecFun b) xf r md := by
  have hm := List.length_pos_iff.2 hb
  have hn := List.length_pos_iff.2 hA
  obtain ⟨x, r, md, e, h⟩ := nnls_spec hs junk b.length A.length (colFun A) (vecFun b)
  refine ⟨x, r, md, ?_, h⟩
  unfold solveNNLS
  simp only [gt_iff_lt, hm, if_true]
  rw [if_neg (by omega)]
  change Option.map _ (nnls sqrt junk b.length A.length (colFun A) (vecFun b)) = _
  rw [e]
  rfl

end QuESo.NNLS
