import Verif.Proofs.GGQWeights
import Mathlib.Tactic.FieldSimp
import Mathlib.Tactic.Positivity

/-! # Neighbour coefficients -/
namespace QuESo.GGQ
open QuESo.BGrid QuESo.Grid QuESo.Spec QuESo.Props

variable {α : Type _} {K : Type _} [Field K] [LinearOrder K] [IsStrictOrderedRing K]

theorem linearFunction_bound (tol : K) (x num : Nat) (hn : 2 ≤ num) (hx : x < num)
    (ht : tol ≤ (num : K) / 10) :
    ∃ v, linearFunction tol x num = some v ∧ (num : K) / 10 ≤ v ∧ v ≤ (num : K) := by
  obtain ⟨m, rfl⟩ : ∃ m, num = m + 2 := ⟨num - 2, by omega⟩
  unfold linearFunction
  simp only []
  have hc : ((m + 2 - 1 : Nat) : K) / 2 = ((m : K) + 1) / 2 := by
    have : m + 2 - 1 = m + 1 := by omega
    rw [this]; push_cast; ring
  rw [hc]
  have hm : (0 : K) ≤ m := Nat.cast_nonneg m
  have hcpos : (0 : K) < ((m : K) + 1) / 2 := by positivity
  have hx' : (x : K) ≤ (m : K) + 1 := by
    have : x ≤ m + 1 := by omega
    exact_mod_cast this
  have hx0 : (0 : K) ≤ x := Nat.cast_nonneg x
  have hd : |((m : K) + 1) / 2 - x| ≤ ((m : K) + 1) / 2 := by
    rw [abs_le]; constructor <;> linarith
  have hd0 := abs_nonneg (((m : K) + 1) / 2 - (x : K))
  have hq : 0 ≤ (9 / 10 : K) / (((m : K) + 1) / 2) := by positivity
  have hle : (9 / 10 : K) / (((m : K) + 1) / 2) * |((m : K) + 1) / 2 - x| ≤ 9 / 10 := by
    calc _ ≤ (9 / 10 : K) / (((m : K) + 1) / 2) * (((m : K) + 1) / 2) := mul_le_mul_of_nonneg_left hd hq
      _ = 9 / 10 := div_mul_cancel₀ _ hcpos.ne'
  have hge : 0 ≤ (9 / 10 : K) / (((m : K) + 1) / 2) * |((m : K) + 1) / 2 - x| := mul_nonneg hq hd0
  have hnum : (0 : K) ≤ ((m + 2 : Nat) : K) := Nat.cast_nonneg _
  have h1 : ((m + 2 : Nat) : K) / 10 ≤
      (1 - (9 / 10 : K) / (((m : K) + 1) / 2) * |((m : K) + 1) / 2 - x|) * ((m + 2 : Nat) : K) := by
    have : (1 / 10 : K) ≤ 1 - (9 / 10 : K) / (((m : K) + 1) / 2) * |((m : K) + 1) / 2 - x| := by linarith
    calc ((m + 2 : Nat) : K) / 10 = (1 / 10) * ((m + 2 : Nat) : K) := by ring
      _ ≤ _ := mul_le_mul_of_nonneg_right this hnum
  have h2 : (1 - (9 / 10 : K) / (((m : K) + 1) / 2) * |((m : K) + 1) / 2 - x|) * ((m + 2 : Nat) : K) ≤
      ((m + 2 : Nat) : K) := by
    calc _ ≤ 1 * ((m + 2 : Nat) : K) := mul_le_mul_of_nonneg_right (by linarith) hnum
      _ = _ := one_mul _
  rw [if_neg (not_lt.mpr (le_trans ht h1))]
  exact ⟨_, rfl, h1, h2⟩

theorem assignFrom_ok (tol : K) (num : Nat) (hn : 2 ≤ num) (ht : tol ≤ (num : K) / 10) (row : List Nat) :
    ∀ (i : Nat) (c : Nat → K), i + row.length ≤ num → (∀ j, 0 < c j) →
      ∃ c', assignFrom tol num i row c = some c' ∧ ∀ j, 0 < c' j := by
  induction row with
  | nil => intro i c _ hc; exact ⟨c, rfl, hc⟩
  | cons id row ih =>
    intro i c hi hc
    simp only [List.length_cons] at hi
    obtain ⟨v, e, h1, _⟩ := linearFunction_bound tol i num hn (by omega) ht
    unfold assignFrom
    rw [e]
    have hv : 0 < v := by
      have : (0 : K) < num := by exact_mod_cast (by omega : 0 < num)
      exact lt_of_lt_of_le (by positivity) h1
    apply ih _ _ (by omega)
    intro j
    split
    · exact mul_pos (hc j) hv
    · exact hc j

theorem assign_ok (tol : K) (ht : tol ≤ 1 / 5) (row : List Nat) (c : Nat → K) (hc : ∀ j, 0 < c j) :
    ∃ c', assign tol row c = some c' ∧ ∀ j, 0 < c' j := by
  unfold assign
  split
  · rename_i h
    apply assignFrom_ok _ _ (by omega) _ _ _ _ (by omega) hc
    have : (2 : K) ≤ (row.length : K) := by exact_mod_cast (by omega : 2 ≤ row.length)
    linarith
  · exact ⟨c, rfl, hc⟩

theorem filter_length_step {p q : Nat → Bool} {x : Nat} (l : List Nat) (hn : l.Nodup)
    (h : ∀ j ∈ l, p j = true → q j = true ∨ j = x) :
    (l.filter p).length ≤ (l.filter q).length + (if x ∈ l then 1 else 0) := by
  induction l with
  | nil => simp
  | cons a t ih =>
    have ih' := ih (List.nodup_cons.mp hn).2 (fun j hj => h j (List.mem_cons_of_mem _ hj))
    have ha := h a (by simp)
    by_cases hp : p a = true
    · rw [List.filter_cons_of_pos hp]
      rcases ha hp with hq | rfl
      · rw [List.filter_cons_of_pos hq]
        simp only [List.length_cons]
        have : (if x ∈ t then 1 else 0) ≤ (if x ∈ a :: t then 1 else 0 : Nat) := by
          split <;> simp_all
        omega
      · have hnot := (List.nodup_cons.mp hn).1
        rw [if_neg hnot] at ih'
        simp only [List.length_cons, List.mem_cons, true_or, if_true]
        by_cases hq : q a = true
        · rw [List.filter_cons_of_pos hq]; simp only [List.length_cons]; omega
        · rw [List.filter_cons_of_neg hq]; omega
    · rw [List.filter_cons_of_neg hp]
      have : (t.filter q).length ≤ ((a :: t).filter q).length := by
        by_cases hq : q a = true
        · rw [List.filter_cons_of_pos hq]; simp
        · rw [List.filter_cons_of_neg hq]
      have : (if x ∈ t then 1 else 0) ≤ (if x ∈ a :: t then 1 else 0 : Nat) := by
        split <;> simp_all
      omega

/-- Rank of a cell id in the walk in direction `d`. -/
def idRank (n : V3 Nat) (d : Dir) (i : Nat) : Nat := rank (globalPartition n) d (toMat n (i - 1))

/-- The untrimmed ids that the walk has not reached yet. -/
def ahead (s : State α) (n : V3 Nat) (d : Dir) (cur : Nat) : Nat :=
  ((ids s).filter (fun j => decide (idRank n d cur < idRank n d j))).length

theorem coeffLoop_ok {s : State α} {n : V3 Nat} (h : WF s n) (tol : K) (ht : tol ≤ 1 / 5) (d : Dir) (fuel : Nat) :
    ∀ (counter cur : Nat) (row : List Nat) (c : Nat → K), 1 ≤ cur → cur ≤ numElements n →
      s.numUntrimmed ≤ counter + ahead s n d cur → numElements n ≤ fuel + idRank n d cur → (∀ j, 0 < c j) →
      ∃ c', coeffLoop s n tol d fuel counter cur row c = .ok c' ∧ ∀ j, 0 < c' j := by
  obtain ⟨lg, hinv⟩ := h.inv
  have hnod := ids_nodup hinv
  have hstop : ∀ (fuel counter cur : Nat) (row : List Nat) (c : Nat → K), ¬ counter < s.numUntrimmed →
      (∀ j, 0 < c j) → ∃ c', coeffLoop s n tol d fuel counter cur row c = .ok c' ∧ ∀ j, 0 < c' j := by
    intro fuel counter cur row c hcn hc
    unfold coeffLoop
    rw [if_neg hcn]
    obtain ⟨c', e, hc'⟩ := assign_ok tol ht row c hc
    rw [e]
    exact ⟨c', rfl, hc'⟩
  have hlast : ∀ cur, 1 ≤ cur → cur ≤ numElements n → numElements n ≤ idRank n d cur + 1 → ahead s n d cur = 0 := by
    intro cur h1 h2 h3
    unfold ahead
    rw [List.length_eq_zero_iff, List.filter_eq_nil_iff]
    intro j hj
    obtain ⟨r1, r2⟩ := h.range j hj
    obtain ⟨hv, hin⟩ := id_sub_inPart n j r1 r2
    have hlt := rank_lt hv d hin
    have htot : total (globalPartition n) = numElements n := by
      obtain ⟨q1, q2, q3⟩ := pos_of_lt_num (show j - 1 < numElements n by omega)
      unfold total wx wy wz globalPartition numElements
      simp only []
      rw [show n.x - 1 - 0 + 1 = n.x by omega, show n.y - 1 - 0 + 1 = n.y by omega,
        show n.z - 1 - 0 + 1 = n.z by omega]
    rw [htot] at hlt
    simp only [decide_eq_true_eq, not_lt]
    unfold idRank at *
    omega
  induction fuel with
  | zero =>
    intro counter cur row c h1 h2 h3 h4 hc
    apply hstop _ _ _ _ _ _ hc
    rw [hlast cur h1 h2 (by omega)] at h3
    omega
  | succ fuel ih =>
    intro counter cur row c h1 h2 h3 h4 hc
    by_cases hcn : counter < s.numUntrimmed
    swap
    · exact hstop _ _ _ _ _ hcn hc
    obtain ⟨hv, hin⟩ := id_sub_inPart n cur h1 h2
    have hng : (stepV (globalPartition n) d (toMat n (cur - 1))).2 ≠ .globalEnd := by
      intro hg
      have hl := (stepV_global hv d hin hg).2
      have hr := rank_last hv d
      rw [← hl] at hr
      have htot : total (globalPartition n) = numElements n := by
        obtain ⟨q1, q2, q3⟩ := pos_of_lt_num (show cur - 1 < numElements n by omega)
        unfold total wx wy wz globalPartition numElements
        simp only []
        rw [show n.x - 1 - 0 + 1 = n.x by omega, show n.y - 1 - 0 + 1 = n.y by omega,
          show n.z - 1 - 0 + 1 = n.z by omega]
      have := hlast cur h1 h2 (by unfold idRank; omega)
      omega
    have hrank := stepV_rank hv d hin hng
    have hsin := stepV_inPart hv d hin
    have hsg := inGrid_of_inPart hv hsin
    have hnid : nid n d cur = toVec n (stepV (globalPartition n) d (toMat n (cur - 1))).1 + 1 := by
      unfold nid nextGlobal; rw [next_eq]
    have hr2 : idRank n d (nid n d cur) = idRank n d cur + 1 := by
      unfold idRank
      rw [hnid, Nat.add_sub_cancel, toMat_toVec n _ hsg, hrank]
    have hnid1 : 1 ≤ nid n d cur := by rw [hnid]; omega
    have hnid2 : nid n d cur ≤ numElements n := by
      rw [hnid]; have := toVec_lt n _ hsg; omega
    have hah : ahead s n d cur ≤ ahead s n d (nid n d cur) + (if nid n d cur ∈ ids s then 1 else 0) := by
      unfold ahead
      apply filter_length_step _ hnod
      intro j hj hp
      simp only [decide_eq_true_eq] at hp ⊢
      rw [hr2]
      rcases Nat.lt_or_ge (idRank n d cur + 1) (idRank n d j) with h5 | h5
      · exact Or.inl h5
      · right
        obtain ⟨r1, r2⟩ := h.range j hj
        obtain ⟨_, hjin⟩ := id_sub_inPart n j r1 r2
        have : toMat n (j - 1) = (stepV (globalPartition n) d (toMat n (cur - 1))).1 := by
          apply rank_inj d hjin hsin
          rw [hrank]
          unfold idRank at *
          omega
        rw [hnid, ← this, toVec_toMat]; omega
    unfold coeffLoop
    rw [if_pos hcn]
    simp only []
    have hnext : (s.nextElement n .untrimmed cur d).nextId = nid n d cur := rfl
    rw [hnext, pNext_eq h]
    have hcount : s.numUntrimmed ≤
        (if (if nid n d cur ∈ ids s then some (nid n d cur) else none).isSome then counter + 1 else counter) +
          ahead s n d (nid n d cur) := by
      split at hah <;> rename_i hm <;> simp only [hm, if_true, if_false, Option.isSome_some, Option.isSome_none]
      · omega
      · simp only [Bool.false_eq_true, if_false]; omega
    split
    · split
      · rename_i e
        obtain ⟨c', e', _⟩ := assign_ok tol ht _ c hc
        exact absurd (e.symm.trans e') (by simp)
      · rename_i c1 e
        have hc1 : ∀ j, 0 < c1 j := by
          obtain ⟨c', e', hc'⟩ := assign_ok tol ht _ c hc
          have := e.symm.trans e'
          simp only [Option.some.injEq] at this
          rw [this]; exact hc'
        exact ih _ _ _ _ hnid1 hnid2 hcount (by rw [hr2]; omega) hc1
    · exact ih _ _ _ _ hnid1 hnid2 hcount (by rw [hr2]; omega) hc

theorem coeffDir_ok {s : State α} {n : V3 Nat} (h : WF s n) (tol : K) (ht : tol ≤ 1 / 5) (d : Dir)
    (hd : d = .xf ∨ d = .yf ∨ d = .zf) (hnum : 1 ≤ numElements n) (fuel : Nat) (hf : numElements n ≤ fuel) (c : Nat → K) (hc : ∀ j, 0 < c j) :
    ∃ c', coeffDir s n tol fuel d c = .ok c' ∧ ∀ j, 0 < c' j := by
  obtain ⟨lg, hinv⟩ := h.inv
  unfold coeffDir
  simp only []
  have hv := (id_sub_inPart n 1 (le_refl _) hnum).1
  have h0 : idRank n d 1 = 0 := by
    have hs := rank_start hv d
    unfold idRank
    have : toMat n (1 - 1) = startCorner (globalPartition n) d := by
      rcases hd with rfl | rfl | rfl <;> simp [startCorner, globalPartition, toMat]
    rw [this, hs]
  apply coeffLoop_ok h tol ht d fuel 1 1 _ c (le_refl _) hnum _ (by omega) hc
  have hlen : s.numUntrimmed = ((ids s).filter (fun _ => true)).length := by
    simp [State.numUntrimmed, ids]
  rw [hlen]
  have := filter_length_step (p := fun _ => true) (q := fun j => decide (idRank n d 1 < idRank n d j)) (x := 1)
    (ids s) (ids_nodup hinv) (by
      intro j hj _
      simp only [decide_eq_true_eq]
      rw [h0]
      rcases Nat.eq_zero_or_pos (idRank n d j) with h5 | h5
      · right
        obtain ⟨r1, r2⟩ := h.range j hj
        have hin := (id_sub_inPart n j r1 r2).2
        have hin1 := (id_sub_inPart n 1 (le_refl _) hnum).2
        have := rank_inj d hin hin1 (by unfold idRank at *; omega)
        have e := congrArg (toVec n) this
        rw [toVec_toMat, toVec_toMat] at e
        omega
      · exact Or.inl h5)
  unfold ahead
  split at this <;> omega

theorem computeCoefficients_ok {s : State α} {n : V3 Nat} (h : WF s n) (tol : K) (ht : tol ≤ 1 / 5)
    (hnum : 1 ≤ numElements n) (fuel : Nat) (hf : numElements n ≤ fuel) :
    ∃ c, computeCoefficients s n tol fuel = .ok c ∧ ∀ j, 0 < c j := by
  obtain ⟨c1, e1, h1⟩ := coeffDir_ok h tol ht .xf (by simp) hnum fuel hf (fun _ => (1 : K)) (fun _ => one_pos)
  obtain ⟨c2, e2, h2⟩ := coeffDir_ok h tol ht .yf (by simp) hnum fuel hf c1 h1
  obtain ⟨c3, e3, h3⟩ := coeffDir_ok h tol ht .zf (by simp) hnum fuel hf c2 h2
  refine ⟨c3, ?_, h3⟩
  unfold computeCoefficients
  rw [e1]; simp only []; rw [e2]; exact e3

end QuESo.GGQ
