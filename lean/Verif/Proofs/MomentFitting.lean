import Verif.Model.MomentFitting
import Verif.Spec.MomentFitting
import Mathlib.Tactic.Linarith
import Mathlib.Data.List.Perm.Subperm

/-! # Point elimination: auxiliary lemmas -/
namespace QuESo.Trimmed
open Mapping Spec
variable {K : Type _} [Field K] [LinearOrder K]

theorem foldl_max (l : List (VolPoint K)) (q : VolPoint K) :
    ∃ m ∈ q :: l, l.foldl (fun m r => if r.weight > m then r.weight else m) q.weight = m.weight ∧
      ∀ x ∈ q :: l, x.weight ≤ m.weight := by
  induction l generalizing q with
  | nil => exact ⟨q, by simp, rfl, by simp⟩
  | cons a l ih =>
    rw [List.foldl_cons]
    by_cases h : a.weight > q.weight
    · rw [if_pos h]
      obtain ⟨m, hm, e, hle⟩ := ih a
      refine ⟨m, List.mem_cons_of_mem _ hm, e, fun x hx => ?_⟩
      rcases List.mem_cons.1 hx with rfl | hx
      · exact h.le.trans (hle a (by simp))
      · exact hle x hx
    · rw [if_neg h]
      obtain ⟨m, hm, e, hle⟩ := ih q
      refine ⟨m, by grind, e, fun x hx => ?_⟩
      rcases List.mem_cons.1 hx with rfl | hx
      · exact hle _ (by simp)
      · rcases List.mem_cons.1 hx with rfl | hx
        · exact (not_lt.1 h).trans (hle q (by simp))
        · exact hle x (by simp [hx])

theorem maxWeight_spec {l : List (VolPoint K)} (h : l ≠ []) :
    ∃ m ∈ l, maxWeight l = m.weight ∧ ∀ x ∈ l, x.weight ≤ m.weight := by
  cases l with
  | nil => exact absurd rfl h
  | cons q l => exact foldl_max l q

theorem minIdx_spec {l : List (VolPoint K)} (h : l ≠ []) :
    ∃ i q, minIdx l = some i ∧ l[i]? = some q ∧ ∀ x ∈ l, q.weight ≤ x.weight := by
  induction l with
  | nil => exact absurd rfl h
  | cons q l ih =>
    by_cases hl : l = []
    · subst hl; exact ⟨0, q, rfl, rfl, by simp⟩
    obtain ⟨i, r, hi, hr, hle⟩ := ih hl
    by_cases hw : r.weight < q.weight
    · refine ⟨i + 1, r, by simp [minIdx, hi, hr, hw], by simpa using hr, ?_⟩
      intro x hx
      rcases List.mem_cons.1 hx with rfl | hx
      · exact hw.le
      · exact hle x hx
    · refine ⟨0, q, by simp [minIdx, hi, hr, hw], rfl, ?_⟩
      intro x hx
      rcases List.mem_cons.1 hx with rfl | hx
      · exact le_rfl
      · exact (not_lt.1 hw).trans (hle x hx)

theorem filter_not_lt (l : List (VolPoint K)) (zt : K) :
    (l.filter fun q => ¬ q.weight < zt) = l.filter fun q => zt ≤ q.weight := by
  apply List.filter_congr
  intro q _
  simp [not_lt]

variable [IsStrictOrderedRing K]

theorem small_iff (mx w : K) : ¬ w < mx / 100000000 ↔ mx ≤ 100000000 * w := by
  rw [not_lt, div_le_iff₀ (by norm_num)]
  rw [mul_comm]

theorem kept_eq (l : List (VolPoint K)) (mx : K) :
    (l.filter fun q => ¬ q.weight < mx / 100000000) = l.filter fun q => mx ≤ 100000000 * q.weight := by
  apply List.filter_congr
  intro q _
  simp only [small_iff]

theorem eraseIdx_split {α} {l : List α} {i : Nat} {q : α} (h : l[i]? = some q) :
    ∃ a b, l = a ++ q :: b ∧ l.eraseIdx i = a ++ b := by
  induction l generalizing i with
  | nil => simp at h
  | cons x l ih =>
    cases i with
    | zero => simp at h; subst h; exact ⟨[], l, rfl, rfl⟩
    | succ i =>
      obtain ⟨a, b, e1, e2⟩ := ih (by simpa using h)
      exact ⟨x :: a, b, by simp [e1], by simp [e2]⟩

theorem eliminate_spec (least : Nat) (s : Elim K) (h : s.pts ≠ []) :
    Thinned least s.pts (eliminate least s).pts ∧ (eliminate least s).prev = s.pts ∧
      (eliminate least s).prevRes = s.global ∧ (eliminate least s).global = s.global ∧
      ((eliminate least s).pts.length ≤ least ∧ (eliminate least s).n = 1011 ∨
       least < (eliminate least s).pts.length ∧ (eliminate least s).n = s.n + 1 ∧
         (eliminate least s).elim = true) := by
  obtain ⟨m, hm, em, hle⟩ := maxWeight_spec h
  have hk := kept_eq s.pts m.weight
  refine ⟨?_, rfl, rfl, rfl, ?_⟩
  · simp only [eliminate, em, hk]
    by_cases hs : (s.pts.filter fun q => m.weight ≤ 100000000 * q.weight).length = s.pts.length
    · have hs' : (s.pts.filter fun q => m.weight ≤ 100000000 * q.weight) = s.pts :=
        List.filter_sublist.eq_of_length hs
      rw [hs']
      have hns : NotSmall s.pts s.pts := ⟨m, hm, hle, hs'.symm⟩
      by_cases hl : s.pts.length > least
      · obtain ⟨i, q, hi, hq, hmin⟩ := minIdx_spec h
        obtain ⟨a, b, e1, e2⟩ := eraseIdx_split hq
        refine Or.inr (Or.inl ⟨hns, hl, a, q, b, e1, ?_, hmin⟩)
        simp [hl, hi, e2]
      · refine Or.inr (Or.inr ⟨hns, not_lt.1 hl, ?_⟩)
        simp [hl]
    · refine Or.inl ⟨⟨m, hm, hle, ?_⟩, ?_⟩
      · simp [hs]
      · intro e
        simp only [hs, ne_eq, not_false_eq_true, decide_true, Bool.not_true, Bool.false_and,
          Bool.false_eq_true, if_false] at e
        exact hs (by rw [e])
  · by_cases hp : (eliminate least s).pts.length ≤ least
    · refine Or.inl ⟨hp, ?_⟩
      simp only [eliminate] at hp ⊢
      rw [if_pos hp]
    · refine Or.inr ⟨not_le.1 hp, ?_, ?_⟩
      · simp only [eliminate] at hp ⊢
        rw [if_neg hp]
      · simp only [eliminate, em, hk] at hp ⊢
        by_cases hs : (s.pts.filter fun q => m.weight ≤ 100000000 * q.weight).length = s.pts.length
        · by_cases hl : (s.pts.filter fun q => m.weight ≤ 100000000 * q.weight).length > least
          · simp [hl]
          · exfalso
            rw [hs] at hl
            simp [hs, hl] at hp
        · simp [hs]

theorem thinned_subperm {least : Nat} {W S : List (VolPoint K)} (h : Thinned least W S) : S.Sublist W := by
  rcases h with ⟨⟨m, -, -, rfl⟩, -⟩ | ⟨-, -, l, q, r, rfl, rfl, -⟩ | ⟨-, -, rfl⟩
  · exact List.filter_sublist
  · exact List.Sublist.append (List.Sublist.refl l) (List.sublist_cons_self q r)
  · exact List.Sublist.refl _

theorem chain_facts {fit : List (VolPoint K) → List (VolPoint K) × K} (hf : KeepsPositions fit) {target : K}
    {least k : Nat} {S₁ S : List (VolPoint K)} (h : Chain fit target least S₁ k S) (h0 : S₁ ≠ []) :
    S ≠ [] ∧ (S.map VolPoint.pos).Sublist (S₁.map VolPoint.pos) ∧ (fit S).2 < target ∧ 1 ≤ k := by
  induction h with
  | one h => exact ⟨h0, List.Sublist.refl _, h, le_rfl⟩
  | next h ht hl hfit ih =>
    obtain ⟨-, i2, -, -⟩ := ih
    refine ⟨fun e => ?_, ?_, hfit, by omega⟩
    · rw [e] at hl; simp at hl
    · have := (thinned_subperm ht).map VolPoint.pos
      rw [hf] at this
      exact this.trans i2

/-- The rule that is returned if the sets fitted so far are `S₁, …, S`. -/
def Returned (fit : List (VolPoint K) → List (VolPoint K) × K) (zt target : K) (least : Nat)
    (S₁ : List (VolPoint K)) (s : Elim K) : Prop :=
  ∃ k S S', Chain fit target least S₁ k S ∧ k ≤ 999 ∧ Thinned least (fit S).1 S' ∧
    (S'.length ≤ least ∨ target ≤ (fit S').2 ∨ k = 999) ∧
    (finish zt target [] s).residual = (fit S).2 ∧
    (finish zt target [] s).points = (fit S).1.filter (fun q => ¬ q.weight < zt)

theorem finish_prev {zt target : K} {s : Elim K}
    (h : (s.global ≥ target ∧ s.prev.length > 0) ∨ s.n > 1000) :
    (finish zt target [] s).residual = s.prevRes ∧
      (finish zt target [] s).points = s.prev.filter (fun q => ¬ q.weight < zt) := by
  unfold finish
  rw [if_pos h]
  simp

theorem finish_current {zt target : K} {s : Elim K}
    (h : ¬ ((s.global ≥ target ∧ s.prev.length > 0) ∨ s.n > 1000)) :
    (finish zt target [] s).residual = s.global ∧
      (finish zt target [] s).points = s.pts.filter (fun q => ¬ q.weight < zt) := by
  unfold finish
  rw [if_neg h]
  simp

theorem elimStep_later {fit : List (VolPoint K) → List (VolPoint K) × K}
    {sort : List (VolPoint K) → List (VolPoint K)} {zt target : K} {nf least : Nat} {s : Elim K} (hn : s.n ≠ 0) :
    elimStep fit sort zt target nf least s =
      if (fit s.pts).2 < target ∧ s.n < 1000 then
        .ok (eliminate least ⟨(fit s.pts).1, (fit s.pts).2, s.prev, s.prevRes, s.n, false⟩, false)
      else .ok (⟨(fit s.pts).1, (fit s.pts).2, s.prev, s.prevRes, s.n + 1, false⟩, false) := by
  unfold elimStep
  rw [if_neg hn]

/-- Once the counter is above the limit, at most one more system is solved, and the stored solution stays. -/
theorem loop_over {fit : List (VolPoint K) → List (VolPoint K) × K}
    {sort : List (VolPoint K) → List (VolPoint K)} {zt target : K} {nf least : Nat} {s : Elim K}
    (hn : 1000 < s.n) (fuel : Nat) :
    ∃ s', elimLoop fit sort zt target nf least (fuel + 2) s = .ok s' ∧ s'.prev = s.prev ∧
      s'.prevRes = s.prevRes ∧ 1000 < s'.n ∧ (s'.pts.length ≤ s.pts.length ∨ s'.pts = (fit s.pts).1) := by
  unfold elimLoop
  by_cases he : s.elim = true
  · rw [if_pos (Or.inl he), elimStep_later (by omega), if_neg (by omega)]
    refine ⟨⟨(fit s.pts).1, (fit s.pts).2, s.prev, s.prevRes, s.n + 1, false⟩, ?_, rfl, rfl, by
      show 1000 < s.n + 1; omega, Or.inr rfl⟩
    show elimLoop fit sort zt target nf least (fuel + 1) _ = _
    unfold elimLoop
    rw [if_neg]
    rintro (h | ⟨-, h⟩)
    · cases h
    · have : s.n + 1 < 1000 := h
      omega
  · rw [if_neg (by rintro (h | ⟨-, h⟩); exacts [he h, by omega])]
    exact ⟨s, rfl, rfl, rfl, hn, Or.inl le_rfl⟩

theorem keeps_length {fit : List (VolPoint K) → List (VolPoint K) × K} (hf : KeepsPositions fit)
    (P : List (VolPoint K)) : (fit P).1.length = P.length := by
  simpa using congrArg List.length (hf P)

theorem keeps_ne_nil {fit : List (VolPoint K) → List (VolPoint K) × K} (hf : KeepsPositions fit)
    {P : List (VolPoint K)} (h : P ≠ []) : (fit P).1 ≠ [] := by
  intro e
  apply h
  rw [← List.length_eq_zero_iff, ← keeps_length hf, e]; rfl

/-- The loop from the third system on. -/
theorem loop_chain {fit : List (VolPoint K) → List (VolPoint K) × K} (hf : KeepsPositions fit)
    {sort : List (VolPoint K) → List (VolPoint K)} {zt target : K} {nf least : Nat} {S₁ : List (VolPoint K)}
    (h0 : S₁ ≠ []) :
    ∀ (fuel k : Nat) (s : Elim K) (S : List (VolPoint K)), 1002 ≤ fuel + k → s.n = k + 1 → k ≤ 999 →
      s.elim = true → Chain fit target least S₁ k S → s.prev = (fit S).1 → s.prevRes = (fit S).2 →
      Thinned least (fit S).1 s.pts → least < s.pts.length →
      ∃ s', elimLoop fit sort zt target nf least fuel s = .ok s' ∧ Returned fit zt target least S₁ s' ∧
        s'.pts.length ≤ s.pts.length := by
  intro fuel
  induction fuel with
  | zero => intro k s S h1 h2 h3; omega
  | succ fuel ih =>
    intro k s S hfuel hn hk he hc hprev hres hthin hlen
    have hne : s.pts ≠ [] := by intro e; rw [e] at hlen; simp at hlen
    unfold elimLoop
    rw [if_pos (Or.inl he), elimStep_later (by omega)]
    by_cases hb : (fit s.pts).2 < target ∧ s.n < 1000
    · rw [if_pos hb]
      have hc' : Chain fit target least S₁ (k + 1) s.pts := Chain.next hc hthin hlen hb.1
      let s1 : Elim K := ⟨(fit s.pts).1, (fit s.pts).2, s.prev, s.prevRes, s.n, false⟩
      obtain ⟨e1, e2, e3, -, e5⟩ := eliminate_spec least s1 (keeps_ne_nil hf hne)
      have hsub : (eliminate least s1).pts.length ≤ s.pts.length := by
        have := (thinned_subperm e1).length_le
        rwa [show s1.pts.length = s.pts.length from keeps_length hf _] at this
      rcases e5 with ⟨hl, hn'⟩ | ⟨hl, hn', he'⟩
      · obtain ⟨fuel', rfl⟩ : ∃ f, fuel = f + 2 := ⟨fuel - 2, by omega⟩
        obtain ⟨s', q1, q2, q3, q4, q5⟩ := loop_over (fit := fit) (sort := sort) (zt := zt) (target := target)
          (nf := nf) (least := least) (s := eliminate least s1) (by omega) fuel'
        refine ⟨s', q1, ⟨k + 1, s.pts, (eliminate least s1).pts, hc', by omega, e1, Or.inl hl, ?_, ?_⟩, ?_⟩
        · rw [(finish_prev (Or.inr q4)).1, q3, e3]
        · rw [(finish_prev (Or.inr q4)).2, q2, e2]
        · rcases q5 with q5 | q5
          · omega
          · rw [q5, keeps_length hf]; exact hsub
      · have hn'' : (eliminate least s1).n = s.n + 1 := hn'
        obtain ⟨s', q1, q2, q3⟩ := ih (k + 1) (eliminate least s1) s.pts (by omega) (by omega) (by omega) he'
          hc' e2 e3 e1 hl
        exact ⟨s', q1, q2, q3.trans hsub⟩
    · rw [if_neg hb]
      obtain ⟨fuel', rfl⟩ : ∃ f, fuel = f + 1 := ⟨fuel - 1, by omega⟩
      let s2 : Elim K := ⟨(fit s.pts).1, (fit s.pts).2, s.prev, s.prevRes, s.n + 1, false⟩
      have hend : elimLoop fit sort zt target nf least (fuel' + 1) s2 = .ok s2 := by
        unfold elimLoop
        rw [if_neg]
        rintro (h | ⟨h1, h2⟩)
        · cases h
        · exact hb ⟨h1, by have : s.n + 1 < 1000 := h2; omega⟩
      refine ⟨s2, hend, ⟨k, S, s.pts, hc, hk, hthin, ?_, ?_, ?_⟩, ?_⟩
      · rcases not_and_or.1 hb with h | h
        · exact Or.inr (Or.inl (not_lt.1 h))
        · exact Or.inr (Or.inr (by omega))
      all_goals
        try
          have hfin : (s2.global ≥ target ∧ s2.prev.length > 0) ∨ s2.n > 1000 := by
            rcases not_and_or.1 hb with h | h
            · refine Or.inl ⟨not_lt.1 h, ?_⟩
              show s.prev.length > 0
              rw [hprev]
              exact List.length_pos_of_ne_nil (keeps_ne_nil hf (chain_facts hf hc h0).1)
            · exact Or.inr (by show s.n + 1 > 1000; omega)
      · rw [(finish_prev hfin).1]; exact hres
      · rw [(finish_prev hfin).2]; show s.prev.filter _ = _; rw [hprev]
      · exact (keeps_length hf _).le

/-- Cutting off a sorted list and dropping the small points gives the heaviest points. -/
theorem heaviest_take {sort : List (VolPoint K) → List (VolPoint K)} (hs : SortsByWeight sort) (nf : Nat)
    (zt : K) (l : List (VolPoint K)) (hl : nf ≤ l.length) :
    Heaviest nf zt l (((sort l).take nf).filter fun q => ¬ q.weight < zt) := by
  obtain ⟨hp, hpw⟩ := hs l
  have hlen : ((sort l).take nf).length = nf := by
    rw [List.length_take, hp.length_eq]; omega
  refine ⟨((sort l).take nf).filter (fun q => q.weight < zt) ++ (sort l).drop nf, ?_, ?_, ?_, ?_⟩
  · rw [← List.append_assoc]
    refine List.Perm.trans (List.Perm.append_right _ ?_) ((List.take_append_drop nf (sort l)).symm ▸ hp)
    have h := List.filter_append_perm (fun q : VolPoint K => decide (¬ q.weight < zt)) ((sort l).take nf)
    refine List.Perm.trans (List.Perm.append_left _ ?_) h
    refine List.Perm.of_eq (List.filter_congr fun q _ => ?_)
    by_cases hq : q.weight < zt <;> simp [hq]
  · exact (List.length_filter_le _ _).trans hlen.le
  · intro a ha
    have := (List.mem_filter.1 ha).2
    simpa using this
  · intro b hb
    rcases List.mem_append.1 hb with hb | hb
    · exact Or.inl (by simpa using (List.mem_filter.1 hb).2)
    · have hab : ∀ a ∈ (sort l).take nf, b.weight ≤ a.weight := by
        intro a ha
        have h2 := hpw
        rw [← List.take_append_drop nf (sort l), List.pairwise_append] at h2
        exact h2.2.2 a ha b hb
      by_cases hbz : b.weight < zt
      · exact Or.inl hbz
      · refine Or.inr ⟨?_, fun a ha => hab a (List.mem_filter.1 ha).1⟩
        rw [List.filter_eq_self.2, hlen]
        intro a ha
        have := hab a ha
        simp only [not_lt] at hbz ⊢
        simpa using hbz.trans this

/-- The whole of the point elimination. -/
theorem pointElimination_trace {fit : List (VolPoint K) → List (VolPoint K) × K} (hf : KeepsPositions fit)
    {sort : List (VolPoint K) → List (VolPoint K)} (hs : SortsByWeight sort) {zt mind target : K}
    (ht : mind < target) {o : V3 Nat} {pts : List (VolPoint K)} (hl : numFun o ≤ pts.length) :
    ∃ r, pointElimination fit sort zt mind target o [] pts = .ok r ∧ r.rest.length ≤ numFun o ∧
      Eliminated fit zt target (numFun o) (o.x * o.y * o.z) pts r.residual r.points := by
  have hlen := keeps_length hf pts
  have hH := heaviest_take hs (numFun o) zt (fit pts).1 (by omega)
  set S₁ := (((sort (fit pts).1).take (numFun o)).filter fun q => ¬ q.weight < zt) with hS
  have hS1 : S₁.length ≤ numFun o := by obtain ⟨-, -, h, -⟩ := hH; exact h
  unfold pointElimination
  rw [show (1003 : Nat) = 1002 + 1 from rfl, elimLoop, if_pos (Or.inr ⟨ht, by show (0 : Nat) < 1000; decide⟩)]
  simp only [elimStep, if_true, if_neg (not_lt.2 (hlen ▸ hl)), ← hS]
  by_cases h0 : S₁.length = 0
  · rw [if_pos h0]
    have h0' := List.length_eq_zero_iff.1 h0
    rw [h0']
    refine ⟨_, rfl, ?_, [], h0' ▸ hH, Or.inl ⟨rfl, ?_, ?_⟩⟩
    · unfold finish; split <;> simp
    · rw [(finish_current (by simp)).1]
    · rw [(finish_current (by simp)).2]; rfl
  · rw [if_neg h0]
    have hne : S₁ ≠ [] := fun e => h0 (by rw [e]; rfl)
    simp only [Nat.zero_add]
    rw [show (1002 : Nat) = 1001 + 1 from rfl, elimLoop, if_pos (Or.inl rfl), elimStep_later (by simp)]
    dsimp only
    by_cases hb : (fit S₁).2 < target
    · rw [if_pos ⟨hb, by decide⟩]
      let s1 : Elim K := ⟨(fit S₁).1, (fit S₁).2, [], 0, 1, false⟩
      obtain ⟨e1, e2, e3, -, e5⟩ := eliminate_spec (o.x * o.y * o.z) s1 (keeps_ne_nil hf hne)
      have hsub : (eliminate (o.x * o.y * o.z) s1).pts.length ≤ numFun o := by
        have := (thinned_subperm e1).length_le
        rw [show s1.pts.length = S₁.length from keeps_length hf _] at this
        omega
      rcases e5 with ⟨hl', hn'⟩ | ⟨hl', hn', he'⟩
      · obtain ⟨s', q1, q2, q3, q4, q5⟩ := loop_over (fit := fit) (sort := sort) (zt := zt) (target := target)
          (nf := numFun o) (least := o.x * o.y * o.z) (s := eliminate (o.x * o.y * o.z) s1) (by omega) 999
        refine ⟨finish zt target [] s', ?_, ?_, S₁, hH, Or.inr (Or.inr ⟨hne, 1, S₁, _, Chain.one hb, by decide,
          e1, Or.inl hl', ?_, ?_⟩)⟩
        · show (match elimLoop fit sort zt target (numFun o) (o.x * o.y * o.z) (999 + 2)
            (eliminate (o.x * o.y * o.z) s1) with | .error e => _ | .ok s => _) = _
          rw [q1]
        · have hr : (finish zt target [] s').rest = s'.pts := by unfold finish; split <;> rfl
          rw [hr]
          rcases q5 with q5 | q5
          · omega
          · rw [q5, keeps_length hf]; exact hsub
        · rw [(finish_prev (Or.inr q4)).1, q3, e3]
        · rw [(finish_prev (Or.inr q4)).2, q2, e2, filter_not_lt]
      · obtain ⟨s', q1, ⟨k, S, S', c1, c2, c3, c4, c5, c6⟩, q3⟩ := loop_chain hf (sort := sort) (zt := zt)
          (nf := numFun o) hne 1001 1 (eliminate (o.x * o.y * o.z) s1) S₁ (by decide) hn' (by decide) he'
          (Chain.one hb) e2 e3 e1 hl'
        refine ⟨finish zt target [] s', ?_, ?_, S₁, hH,
          Or.inr (Or.inr ⟨hne, k, S, S', c1, c2, c3, c4, c5, ?_⟩)⟩
        · show (match elimLoop fit sort zt target (numFun o) (o.x * o.y * o.z) 1001
            (eliminate (o.x * o.y * o.z) s1) with | .error e => _ | .ok s => _) = _
          rw [q1]
        · have hr : (finish zt target [] s').rest = s'.pts := by unfold finish; split <;> rfl
          rw [hr]; omega
        · rw [c6, filter_not_lt]
    · rw [if_neg (fun h => hb h.1)]
      let s2 : Elim K := ⟨(fit S₁).1, (fit S₁).2, [], 0, 1 + 1, false⟩
      have hend : elimLoop fit sort zt target (numFun o) (o.x * o.y * o.z) 1001 s2 = .ok s2 := by
        rw [show (1001 : Nat) = 1000 + 1 from rfl, elimLoop, if_neg]
        rintro (h | ⟨h1, -⟩)
        · cases h
        · exact hb h1
      have hcur : ¬ ((s2.global ≥ target ∧ s2.prev.length > 0) ∨ s2.n > 1000) := by
        show ¬ (((fit S₁).2 ≥ target ∧ ([] : List (VolPoint K)).length > 0) ∨ 2 > 1000)
        simp
      refine ⟨finish zt target [] s2, ?_, ?_, S₁, hH, Or.inr (Or.inl ⟨hne, not_lt.1 hb, ?_, ?_⟩)⟩
      · show (match elimLoop fit sort zt target (numFun o) (o.x * o.y * o.z) 1001 s2 with
          | .error e => _ | .ok s => _) = _
        rw [hend]
      · have hr : (finish zt target [] s2).rest = s2.pts := by unfold finish; split <;> rfl
        rw [hr]
        show (fit S₁).1.length ≤ _
        rw [keeps_length hf]; exact hS1
      · rw [(finish_current hcur).1]
      · rw [(finish_current hcur).2, filter_not_lt]

/-- Points after refinements of the octree of an element. -/
abbrev Elem.dist (e : Elem K) : Nat → List (VolPoint K) → Prop :=
  OctreePoints e.state e.inside e.rule e.active.global e.active.parametric

theorem refines_snoc {state : Box K → IState} {t t' : Octree.Tree K} {calls : List (Nat × Nat)} {m M : Nat}
    {t0 : Octree.Tree K} (h : Octree.refines state t0 calls = some t) (h' : Octree.refine state t m M = some t') :
    Octree.refines state t0 (calls ++ [(m, M)]) = some t' := by
  unfold Octree.refines at *
  rw [List.foldlM_append, h]
  simp [h']

theorem schedule_succ (n : Nat) : schedule (n + 1) = schedule n ++ [(min (n + 1) 4, n + 1)] := by
  simp [schedule, List.range_succ]

/-- The octree after the first `n` refinements. -/
def Elem.At (e : Elem K) (n : Nat) (t : Octree.Tree K) : Prop :=
  Octree.refines e.state (Octree.new e.active.global e.active.parametric) (schedule n) = some t ∧ t.maxLevel = n

theorem distributeLoop_spec (e : Elem K) (minNum : Nat) :
    ∀ (left n : Nat) (t : Octree.Tree K) (pts : List (VolPoint K)),
      e.At n t → pts = t.root.points e.inside e.rule ∨ (pts.length < minNum ∧ 0 < left) →
      ∃ n', e.At n' (distributeLoop e minNum left (n + 1) t pts).1 ∧
        (distributeLoop e minNum left (n + 1) t pts).2 =
          (distributeLoop e minNum left (n + 1) t pts).1.root.points e.inside e.rule ∧
        n ≤ n' ∧ n' ≤ n + left ∧
        (pts.length < minNum → 0 < left → n < n') ∧
        (minNum ≤ (distributeLoop e minNum left (n + 1) t pts).2.length ∨ n' = n + left) ∧
        (∀ k D, n < k → k < n' → e.dist k D → D.length < minNum) ∧
        (n < n' → pts.length < minNum) := by
  intro left
  induction left with
  | zero =>
    intro n t pts h hp
    rcases hp with hp | hp
    · exact ⟨n, h, hp, le_rfl, le_rfl, fun _ h => absurd h (lt_irrefl _), Or.inr rfl, fun k D h1 h2 => by omega, fun h => absurd h (lt_irrefl _)⟩
    · omega
  | succ left ih =>
    intro n t pts h hp
    unfold distributeLoop
    by_cases hl : pts.length < minNum
    · rw [if_pos hl]
      have hr : Octree.refine e.state t (min (n + 1) 4) (n + 1) =
          some ⟨Octree.refineNode e.state (min (n + 1) 4) (n + 1) t.root, min (n + 1) 4, n + 1⟩ := by
        unfold Octree.refine
        rw [if_neg (by omega)]
      rw [hr]
      dsimp only
      have hA : e.At (n + 1) ⟨Octree.refineNode e.state (min (n + 1) 4) (n + 1) t.root, min (n + 1) 4, n + 1⟩ :=
        ⟨by rw [schedule_succ]; exact refines_snoc h.1 hr, rfl⟩
      obtain ⟨n', q1, q2, q3, q4, -, q6, q7, q8⟩ := ih (n + 1) _ _ hA (Or.inl rfl)
      refine ⟨n', q1, q2, by omega, by omega, fun _ _ => by omega, ?_, ?_, fun _ => hl⟩
      · rcases q6 with q6 | q6
        · exact Or.inl q6
        · right; omega
      · intro k D h1 h2 hD
        rcases Nat.lt_or_ge (n + 1) k with h3 | h3
        · exact q7 k D h3 h2 hD
        · obtain rfl : k = n + 1 := by omega
          obtain ⟨t', ht', rfl⟩ := hD
          rw [hA.1] at ht'
          cases ht'
          exact q8 h2
    · rw [if_neg hl]
      rcases hp with hp | hp
      · exact ⟨n, h, hp, le_rfl, by omega, fun h => absurd h hl, Or.inl (not_lt.1 hl), fun k D h1 h2 => by omega,
          fun h => absurd h (lt_irrefl _)⟩
      · omega

theorem distribute_spec (e : Elem K) (minNum n : Nat) (t : Octree.Tree K) (pts : List (VolPoint K)) (h : e.At n t)
    (hp : pts.length < minNum) :
    ∃ n', e.At n' (distribute e minNum t pts).1 ∧ e.dist n' (distribute e minNum t pts).2 ∧ n < n' ∧ n' ≤ n + 5 ∧
      (minNum ≤ (distribute e minNum t pts).2.length ∨ n' = n + 5) ∧
      ∀ k D, n < k → k < n' → e.dist k D → D.length < minNum := by
  obtain ⟨n', q1, q2, q3, q4, q5, q6, q7, -⟩ := distributeLoop_spec e minNum 5 n t pts h (Or.inr ⟨hp, by decide⟩)
  unfold distribute
  rw [h.2]
  exact ⟨n', q1, ⟨_, q1.1, q2⟩, q5 hp (by decide), q4, q6, q7⟩

theorem numFun_eq (o : V3 Nat) : numFun o = numMoments o := rfl

theorem numFun_pos (o : V3 Nat) : 0 < numFun o := by unfold numFun; positivity

omit [IsStrictOrderedRing K] in
theorem levelAfter_cons (n : Nat) (t : Try K) (h : List (Try K)) : levelAfter n (t :: h) = levelAfter t.level h := by
  cases h <;> simp [levelAfter, List.getLast?_cons]

omit [IsStrictOrderedRing K] in
theorem pointsAfter_cons (p : List (VolPoint K)) (t : Try K) (h : List (Try K)) :
    pointsAfter p (t :: h) = pointsAfter t.out h := by
  cases h <;> simp [pointsAfter, List.getLast?_cons]

/-- The loop over the attempts. -/
theorem assembleLoop_spec {fit : List (VolPoint K) → List (VolPoint K) × K} (hf : KeepsPositions fit)
    {sort : List (VolPoint K) → List (VolPoint K)} (hs : SortsByWeight sort) {zt mind target : K}
    (ht : mind < target) {o : V3 Nat} {e : Elem K} :
    ∀ (left i n : Nat) (a : Assembly K), e.At n a.tree →
      a.pts.length < numFun o * a.factor → a.factor = 2 ^ i → target < a.residual →
      (∃ a' h, assembleLoop fit sort zt mind target o e left a = .ok (a', false) ∧
        AreTries e.dist fit zt target o i n a.points h ∧ h.length ≤ left ∧
        ((h = [] ∧ left = 0 ∧ a'.residual = a.residual ∧ a'.points = a.points) ∨
         ∃ l, h.getLast? = some l ∧ a'.residual = l.res ∧ a'.points = l.out ∧
           (l.res ≤ target ∨ h.length = left))) ∨
      (∃ a' h, assembleLoop fit sort zt mind target o e left a = .ok (a', true) ∧
        AreTries e.dist fit zt target o i n a.points h ∧ h.length < left ∧ (∀ t ∈ h, target < t.res) ∧
        a'.residual = 1 ∧ a'.points = [] ∧ e.dist (levelAfter n h + 5) []) ∨
      (assembleLoop fit sort zt mind target o e left a = .error .ub ∧
        ∃ h D, AreTries e.dist fit zt target o i n a.points h ∧ h.length < left ∧ (∀ t ∈ h, target < t.res) ∧
          e.dist (levelAfter n h + 5) D ∧ D ≠ [] ∧ D.length + (pointsAfter a.points h).length < numFun o) := by
  intro left
  induction left with
  | zero =>
    intro i n a h1 h2 h3 h4
    exact Or.inl ⟨a, [], rfl, trivial, le_rfl, Or.inl ⟨rfl, rfl, rfl, rfl⟩⟩
  | succ left ih =>
    intro i n a h1 h2 h3 h4
    have hpos := numFun_pos o
    have hfac : numFun o * 1 ≤ numFun o * a.factor :=
      Nat.mul_le_mul_left _ (by rw [h3]; exact Nat.one_le_two_pow)
    unfold assembleLoop
    rw [if_pos h4]
    dsimp only
    obtain ⟨n', d1, d2, d3, d4, d5, d6⟩ := distribute_spec e (numFun o * a.factor) n a.tree a.pts h1 h2
    set d := distribute e (numFun o * a.factor) a.tree a.pts with hd
    by_cases h0 : d.2.length = 0
    · rw [if_pos h0]
      refine Or.inr (Or.inl ⟨_, [], rfl, trivial, by simp, by simp, rfl, rfl, ?_⟩)
      rcases d5 with d5 | d5
      · omega
      · subst d5
        rwa [List.length_eq_zero_iff.1 h0] at d2
    · rw [if_neg h0]
      by_cases hub : (d.2 ++ a.points).length < numFun o
      · right; right
        have : pointElimination fit sort zt mind target o [] (d.2 ++ a.points) = .error .ub := by
          unfold pointElimination
          rw [show (1003 : Nat) = 1002 + 1 from rfl, elimLoop,
            if_pos (Or.inr ⟨ht, by show (0 : Nat) < 1000; decide⟩)]
          simp only [elimStep, if_true]
          rw [if_pos (by rw [keeps_length hf]; exact hub)]
        rw [this]
        rw [List.length_append] at hub
        refine ⟨rfl, [], d.2, trivial, by simp, by simp, ?_, fun e => h0 (by rw [e]; rfl), hub⟩
        rcases d5 with d5 | d5
        · omega
        · subst d5; exact d2
      · obtain ⟨r, r1, r2, r3⟩ := pointElimination_trace hf hs (zt := zt) ht (not_lt.1 hub)
        rw [r1]
        dsimp only
        set t : Try K := ⟨n', d.2 ++ a.points, r.residual, if 1 / 100 < r.residual then [] else r.points⟩ with htry
        have hT : IsTry e.dist fit zt target o i n a.points t := by
          refine ⟨d3, d4, ⟨d.2, d2, fun e => h0 (by rw [e]; rfl), ?_, rfl⟩, ?_, r.points, r3, rfl⟩
          · rw [← h3]; exact d5
          · intro k D k1 k2 k3
            rw [← h3]; exact d6 k D k1 k2 k3
        let a2 : Assembly K := ⟨r.residual, a.factor * 2, r.rest, t.out, d.1⟩
        have hlt2 : r.rest.length < numFun o * (a.factor * 2) := by
          rw [← Nat.mul_assoc]; omega
        have hf2 : a.factor * 2 = 2 ^ (i + 1) := by rw [h3, pow_succ]
        show _ ∨ _ ∨ _
        by_cases hres : target < r.residual
        · have hall : ∀ h : List (Try K), (∀ t ∈ h, target < t.res) → ∀ x ∈ t :: h, target < x.res := by
            intro h q4 x hx
            rcases List.mem_cons.1 hx with rfl | hx
            · exact hres
            · exact q4 x hx
          rcases ih (i + 1) n' a2 d1 hlt2 hf2 hres with ⟨a', h, q1, q2, q3, q4⟩ | ⟨a', h, q1, q2, q3, q4, q5, q6, q7⟩ |
            ⟨q1, h, D, q2, q3, q4, q5, q6, q7⟩
          · refine Or.inl ⟨a', t :: h, q1, ⟨hT, fun _ => hres, q2⟩, by simp; omega, Or.inr ?_⟩
            rcases q4 with ⟨e1, e2, e3, e4⟩ | ⟨l, e1, e2, e3, e4⟩
            · subst e1
              exact ⟨t, rfl, e3, e4, Or.inr (by simp [e2])⟩
            · refine ⟨l, ?_, e2, e3, ?_⟩
              · cases h with
                | nil => simp at e1
                | cons x h => rw [List.getLast?_cons_cons]; exact e1
              · rcases e4 with e4 | e4
                · exact Or.inl e4
                · exact Or.inr (by simp [e4])
          · refine Or.inr (Or.inl ⟨a', t :: h, q1, ⟨hT, fun _ => hres, q2⟩, by simp; omega, hall h q4, q5, q6, ?_⟩)
            rw [levelAfter_cons]; exact q7
          · refine Or.inr (Or.inr ⟨q1, t :: h, D, ⟨hT, fun _ => hres, q2⟩, by simp; omega, hall h q4, ?_, q6, ?_⟩)
            · rw [levelAfter_cons]; exact q5
            · rw [pointsAfter_cons]; exact q7
        · have hstop : assembleLoop fit sort zt mind target o e left a2 = .ok (a2, false) := by
            cases left with
            | zero => rfl
            | succ n => unfold assembleLoop; rw [if_neg hres]
          refine Or.inl ⟨a2, [t], hstop, ⟨hT, by simp, trivial⟩, by simp, Or.inr ⟨t, rfl, rfl, rfl, Or.inl ?_⟩⟩
          exact not_lt.1 hres

end QuESo.Trimmed
