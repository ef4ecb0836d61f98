import Verif.Proofs.PlaneContour
import Verif.Proofs.PlaneBox

namespace QuESo.Plane
open QuESo.AABBTree (Fault)
variable {K : Type} [Field K] [LinearOrder K] [IsStrictOrderedRing K]

/-! ## Merging three sorted lists -/

/-- Sorted strictly by the first component. -/
def Rising (l : List (K × Bool)) : Prop := l.Pairwise fun a b => a.1 < b.1

omit [Field K] [IsStrictOrderedRing K] in
theorem elsewhere_cons {a : K × Bool} {B : List (K × Bool)} {v : K × Bool} (h : a.1 ≠ v.1) :
    elsewhere (a :: B) v = elsewhere B v := by
  unfold elsewhere
  simp [h]

omit [Field K] [IsStrictOrderedRing K] in
theorem filter_elsewhere {a : K × Bool} {A B C : List (K × Bool)} (h : ∀ v ∈ A, a.1 ≠ v.1) :
    (A.filter fun v => !elsewhere (a :: B) v && !elsewhere C v) = A.filter fun v => !elsewhere B v && !elsewhere C v := by
  apply List.filter_congr
  intro v hv
  rw [elsewhere_cons (h v hv)]

omit [Field K] [IsStrictOrderedRing K] in
theorem filter_elsewhere' {a : K × Bool} {A B C : List (K × Bool)} (h : ∀ v ∈ A, a.1 ≠ v.1) :
    (A.filter fun v => !elsewhere B v && !elsewhere (a :: C) v) = A.filter fun v => !elsewhere B v && !elsewhere C v := by
  apply List.filter_congr
  intro v hv
  rw [elsewhere_cons (h v hv)]

omit [Field K] [IsStrictOrderedRing K] in
theorem elsewhere_false {B : List (K × Bool)} {v : K × Bool} (h : ∀ w ∈ B, w.1 ≠ v.1) : elsewhere B v = false := by
  unfold elsewhere
  rw [List.any_eq_false]
  intro w hw
  simp [h w hw]

omit [Field K] [IsStrictOrderedRing K] in
theorem elsewhere_head {a : K × Bool} {B : List (K × Bool)} {v : K × Bool} (h : a.1 = v.1) : elsewhere (a :: B) v = true := by
  unfold elsewhere
  simp [h]

omit [Field K] [IsStrictOrderedRing K] in
theorem single_swap (A B C : List (K × Bool)) : (single A B C).Perm (single B A C) := by
  unfold single
  rw [← List.append_assoc, ← List.append_assoc]
  have h : (C.filter fun v => !elsewhere A v && !elsewhere B v) = C.filter fun v => !elsewhere B v && !elsewhere A v := by
    apply List.filter_congr
    intro v _
    rw [Bool.and_comm]
  rw [h]
  exact List.perm_append_comm.append_right _

omit [Field K] [IsStrictOrderedRing K] in
theorem single_rotate (A B C : List (K × Bool)) : (single A B C).Perm (single C A B) := by
  unfold single
  have h1 : (A.filter fun v => !elsewhere B v && !elsewhere C v) = A.filter fun v => !elsewhere C v && !elsewhere B v := by
    apply List.filter_congr
    intro v _
    rw [Bool.and_comm]
  have h2 : (B.filter fun v => !elsewhere A v && !elsewhere C v) = B.filter fun v => !elsewhere C v && !elsewhere A v := by
    apply List.filter_congr
    intro v _
    rw [Bool.and_comm]
  rw [h1, h2, ← List.append_assoc]
  exact List.perm_append_comm

omit [Field K] [IsStrictOrderedRing K] in
theorem rising_ne {a : K × Bool} {A : List (K × Bool)} (h : Rising (a :: A)) : ∀ v ∈ A, a.1 ≠ v.1 := by
  intro v hv
  exact ne_of_lt ((List.pairwise_cons.1 h).1 v hv)

omit [Field K] [IsStrictOrderedRing K] in
/-- A first element that is in front of all others is single. -/
theorem single_one {a : K × Bool} {A B C : List (K × Bool)} (hB : ∀ v ∈ B, a.1 < v.1) (hC : ∀ v ∈ C, a.1 < v.1) :
    single (a :: A) B C = a :: single A B C := by
  have h1 : elsewhere B a = false := elsewhere_false fun w hw => (ne_of_lt (hB w hw)).symm
  have h2 : elsewhere C a = false := elsewhere_false fun w hw => (ne_of_lt (hC w hw)).symm
  unfold single
  rw [filter_elsewhere fun v hv => ne_of_lt (hB v hv), filter_elsewhere fun v hv => ne_of_lt (hC v hv)]
  simp [h1, h2]

omit [Field K] [IsStrictOrderedRing K] in
/-- Two first elements at the same place which is in front of all others are not single. -/
theorem single_two {a b : K × Bool} {A B C : List (K × Bool)} (hA : Rising (a :: A)) (hB : Rising (b :: B)) (hab : a.1 = b.1)
    (hC : ∀ v ∈ C, a.1 < v.1) : single (a :: A) (b :: B) C = single A B C := by
  have h1 : elsewhere (b :: B) a = true := elsewhere_head hab.symm
  have h2 : elsewhere (a :: A) b = true := elsewhere_head hab
  unfold single
  rw [List.filter_cons, List.filter_cons, h1, h2]
  simp only [Bool.not_true, Bool.false_and, Bool.false_eq_true, if_false]
  rw [filter_elsewhere fun v hv => by rw [← hab]; exact rising_ne hA v hv,
    filter_elsewhere fun v hv => by rw [hab]; exact rising_ne hB v hv,
    filter_elsewhere fun v hv => ne_of_lt (hC v hv), filter_elsewhere' fun v hv => by rw [← hab]; exact ne_of_lt (hC v hv)]

omit [Field K] [IsStrictOrderedRing K] in
theorem single_three {a b c : K × Bool} {A B C : List (K × Bool)} (hA : Rising (a :: A)) (hB : Rising (b :: B)) (hC : Rising (c :: C))
    (hab : a.1 = b.1) (hac : a.1 = c.1) : single (a :: A) (b :: B) (c :: C) = single A B C := by
  have h1 : elsewhere (b :: B) a = true := elsewhere_head hab.symm
  have h2 : elsewhere (a :: A) b = true := elsewhere_head hab
  have h3 : elsewhere (a :: A) c = true := elsewhere_head hac
  unfold single
  rw [List.filter_cons, List.filter_cons, List.filter_cons, h1, h2, h3]
  simp only [Bool.not_true, Bool.false_and, Bool.false_eq_true, if_false]
  have nA := rising_ne hA
  have nB := rising_ne hB
  have nC := rising_ne hC
  rw [filter_elsewhere fun v hv => by rw [← hab]; exact nA v hv, filter_elsewhere' fun v hv => by rw [← hac]; exact nA v hv,
    filter_elsewhere fun v hv => by rw [hab]; exact nB v hv, filter_elsewhere' fun v hv => by rw [← hac, hab]; exact nB v hv,
    filter_elsewhere fun v hv => by rw [hac]; exact nC v hv, filter_elsewhere' fun v hv => by rw [← hab, hac]; exact nC v hv]

omit [Field K] [IsStrictOrderedRing K] in
theorem single_mem {A B C : List (K × Bool)} {v : K × Bool} (h : v ∈ single A B C) : v ∈ A ∨ v ∈ B ∨ v ∈ C := by
  unfold single at h
  simp only [List.mem_append, List.mem_filter] at h
  tauto

/-- The marked ends of edges are at the given places, to the right of the left bound. -/
def Params.At (P : Params K) (c : Cont K) (es : List (Edge K)) (ev : Edge K → K × Bool) : Prop :=
  ∀ e ∈ es, (c.pt (if e.on1 then e.v1 else e.v2)).x = (ev e).1 ∧ P.lo.get P.d1 ≤ (ev e).1 ∧ (ev e).1 - P.lo.get P.d1 + P.tol ≤ P.maxd

theorem at_distance {P : Params K} {c : Cont K} {e : Edge K} {es : List (Edge K)} {ev : Edge K → K × Bool} (h : P.At c (e :: es) ev) :
    P.distance c (e :: es) = (ev e).1 - P.lo.get P.d1 := by
  obtain ⟨h1, h2, h3⟩ := h e List.mem_cons_self
  simp only [Params.distance]
  rw [h1, abs_of_nonneg (by linarith)]

/-- A list whose next edge is at the smallest distance, or not. -/
theorem front {P : Params K} (ht : 0 < P.tol) {c : Cont K} {es : List (Edge K)} {ev : Edge K → K × Bool} (h : P.At c es ev)
    (hr : Rising (es.map ev)) {m : K} (hm : m ≤ P.distance c es) (hmax : m + P.tol ≤ P.maxd)
    (hsep : ∀ e ∈ es, (ev e).1 = P.lo.get P.d1 + m ∨ P.tol ≤ |(ev e).1 - (P.lo.get P.d1 + m)|) :
    (decide (P.distance c es < m + P.tol) = true ∧ ∃ e rest, es = e :: rest ∧ (ev e).1 = P.lo.get P.d1 + m) ∨
    (decide (P.distance c es < m + P.tol) = false ∧ ∀ v ∈ es.map ev, P.lo.get P.d1 + m < v.1) := by
  cases es with
  | nil =>
    right
    refine ⟨?_, by simp⟩
    rw [decide_eq_false_iff_not, distance_nil]
    exact not_lt.2 hmax
  | cons e rest =>
    rw [at_distance h] at hm ⊢
    by_cases hd : (ev e).1 - P.lo.get P.d1 < m + P.tol
    · left
      refine ⟨by simpa using hd, e, rest, rfl, ?_⟩
      rcases hsep e List.mem_cons_self with h1 | h1
      · exact h1
      · rw [abs_of_nonneg (by linarith)] at h1
        linarith
    · right
      refine ⟨by simpa using hd, ?_⟩
      rw [List.map_cons] at hr ⊢
      intro v hv
      rw [not_lt] at hd
      rcases List.mem_cons.1 hv with rfl | hv
      · linarith
      · have := (List.pairwise_cons.1 hr).1 v hv
        linarith

/-- The loop over the intersected edges finds the places that belong to one orientation only, from left to right. -/
theorem mergeLoop_single {P : Params K} (hP : P.Sound) (s : State K) (ep en ev : Edge K → K × Bool) :
    ∀ (fuel : Nat) (pos neg ver : List (Edge K)) (out : List (K × Bool)),
      P.At s.pos pos ep → P.At s.neg neg en → P.At s.ver ver ev →
      (∀ e ∈ pos, P.addPositive s.pos e = [ep e]) → (∀ e ∈ neg, P.addNegative s.neg e = [en e]) →
      (∀ e ∈ ver, P.addVertical s.ver e = [ev e]) →
      Rising (pos.map ep) → Rising (neg.map en) → Rising (ver.map ev) →
      (∀ v ∈ pos.map ep ++ neg.map en ++ ver.map ev, ∀ w ∈ pos.map ep ++ neg.map en ++ ver.map ev, v.1 = w.1 ∨ P.tol ≤ |v.1 - w.1|) →
      pos.length + neg.length + ver.length ≤ fuel →
      ∃ mid, P.mergeLoop s fuel pos neg ver out = .ok (out ++ mid) ∧ mid.Perm (single (pos.map ep) (neg.map en) (ver.map ev)) ∧
        Rising mid := by
  have htol := hP.tol_pos
  intro fuel
  induction fuel with
  | zero =>
    intro pos neg ver out _ _ _ _ _ _ _ _ _ _ hl
    have h1 : pos = [] := List.length_eq_zero_iff.1 (by omega)
    have h2 : neg = [] := List.length_eq_zero_iff.1 (by omega)
    have h3 : ver = [] := List.length_eq_zero_iff.1 (by omega)
    subst h1 h2 h3
    exact ⟨[], by simp [Params.mergeLoop], by simp [single], by simp [Rising]⟩
  | succ fuel ih =>
    intro pos neg ver out ap an av dp dn dv rp rn rv hsep hl
    by_cases hemp : (pos.isEmpty && neg.isEmpty && ver.isEmpty) = true
    · simp only [Bool.and_eq_true, List.isEmpty_iff] at hemp
      obtain ⟨⟨h1, h2⟩, h3⟩ := hemp
      subst h1 h2 h3
      exact ⟨[], by simp [Params.mergeLoop], by simp [single], by simp [Rising]⟩
    set m := min (min (P.distance s.pos pos) (P.distance s.neg neg)) (P.distance s.ver ver) with hm
    have m1 : m ≤ P.distance s.pos pos := (min_le_left _ _).trans (min_le_left _ _)
    have m2 : m ≤ P.distance s.neg neg := (min_le_left _ _).trans (min_le_right _ _)
    have m3 : m ≤ P.distance s.ver ver := min_le_right _ _
    -- the smallest distance is the one of some edge
    have hatt : m + P.tol ≤ P.maxd ∧ ∃ v ∈ pos.map ep ++ neg.map en ++ ver.map ev, v.1 = P.lo.get P.d1 + m := by
      have hle : m + P.tol ≤ P.maxd := by
        cases pos with
        | cons e l =>
          have := ap e List.mem_cons_self
          rw [at_distance ap] at m1
          linarith [this.2.2]
        | nil =>
          cases neg with
          | cons e l =>
            have := an e List.mem_cons_self
            rw [at_distance an] at m2
            linarith [this.2.2]
          | nil =>
            cases ver with
            | cons e l =>
              have := av e List.mem_cons_self
              rw [at_distance av] at m3
              linarith [this.2.2]
            | nil => simp at hemp
      refine ⟨hle, ?_⟩
      have hcase : m = P.distance s.pos pos ∨ m = P.distance s.neg neg ∨ m = P.distance s.ver ver := by
        rcases min_choice (min (P.distance s.pos pos) (P.distance s.neg neg)) (P.distance s.ver ver) with h | h
        · rcases min_choice (P.distance s.pos pos) (P.distance s.neg neg) with h' | h'
          · left; rw [hm, h, h']
          · right; left; rw [hm, h, h']
        · right; right; rw [hm, h]
      rcases hcase with h | h | h
      · cases pos with
        | nil => rw [distance_nil] at h; linarith
        | cons e l =>
          rw [at_distance ap] at h
          exact ⟨ep e, by simp, by rw [h]; ring⟩
      · cases neg with
        | nil => rw [distance_nil] at h; linarith
        | cons e l =>
          rw [at_distance an] at h
          exact ⟨en e, by simp, by rw [h]; ring⟩
      · cases ver with
        | nil => rw [distance_nil] at h; linarith
        | cons e l =>
          rw [at_distance av] at h
          exact ⟨ev e, by simp, by rw [h]; ring⟩
    obtain ⟨hmax, v0, hv0, hv0m⟩ := hatt
    have fp := front htol ap rp m1 hmax (fun e he => by
      rw [← hv0m]
      exact hsep _ (by simp only [List.mem_append]; exact Or.inl (Or.inl (List.mem_map_of_mem he))) v0 hv0)
    have fn := front htol an rn m2 hmax (fun e he => by
      rw [← hv0m]
      exact hsep _ (by simp only [List.mem_append]; exact Or.inl (Or.inr (List.mem_map_of_mem he))) v0 hv0)
    have fv := front htol av rv m3 hmax (fun e he => by
      rw [← hv0m]
      exact hsep _ (by simp only [List.mem_append]; exact Or.inr (List.mem_map_of_mem he)) v0 hv0)
    have tail : ∀ {c : Cont K} {e : Edge K} {l : List (Edge K)} {f : Edge K → K × Bool}, P.At c (e :: l) f → P.At c l f :=
      fun h e he => h e (List.mem_cons_of_mem _ he)
    have rtail : ∀ {e : Edge K} {l : List (Edge K)} {f : Edge K → K × Bool}, Rising ((e :: l).map f) → Rising (l.map f) :=
      fun h => (List.pairwise_cons.1 h).2
    have gtail : ∀ {e : Edge K} {l : List (Edge K)} {f : Edge K → K × Bool}, (∀ v ∈ (e :: l).map f, P.lo.get P.d1 + m < v.1) →
        ∀ v ∈ l.map f, P.lo.get P.d1 + m < v.1 := fun h v hv => h v (by rw [List.map_cons]; exact List.mem_cons_of_mem _ hv)
    have rising_cons : ∀ {a : K × Bool} {l A B C : List (K × Bool)}, a.1 = P.lo.get P.d1 + m → l.Perm (single A B C) → Rising l →
        (∀ v ∈ A, P.lo.get P.d1 + m < v.1) → (∀ v ∈ B, P.lo.get P.d1 + m < v.1) → (∀ v ∈ C, P.lo.get P.d1 + m < v.1) →
        Rising (a :: l) := by
      intro a l A B C ha hp hr h1 h2 h3
      refine List.pairwise_cons.2 ⟨?_, hr⟩
      intro v hv
      rw [ha]
      rcases single_mem (hp.mem_iff.1 hv) with h | h | h
      · exact h1 v h
      · exact h2 v h
      · exact h3 v h
    have hhead : ∀ {e : Edge K} {l : List (Edge K)} {f : Edge K → K × Bool}, Rising ((e :: l).map f) → (f e).1 = P.lo.get P.d1 + m →
        ∀ v ∈ l.map f, P.lo.get P.d1 + m < v.1 := by
      intro e l f h he v hv
      rw [← he]
      exact (List.pairwise_cons.1 h).1 v hv
    have sub : ∀ {a b c : List (Edge K)}, a ⊆ pos → b ⊆ neg → c ⊆ ver → ∀ v ∈ a.map ep ++ b.map en ++ c.map ev,
        ∀ w ∈ a.map ep ++ b.map en ++ c.map ev, v.1 = w.1 ∨ P.tol ≤ |v.1 - w.1| := by
      intro a b c ha hb hc
      have hss : a.map ep ++ b.map en ++ c.map ev ⊆ pos.map ep ++ neg.map en ++ ver.map ev :=
        List.append_subset.2 ⟨List.append_subset.2
          ⟨fun x hx => List.mem_append_left _ (List.mem_append_left _ (List.map_subset _ ha hx)),
            fun x hx => List.mem_append_left _ (List.mem_append_right _ (List.map_subset _ hb hx))⟩,
          fun x hx => List.mem_append_right _ (List.map_subset _ hc hx)⟩
      exact fun v hv w hw => hsep v (hss hv) w (hss hw)
    unfold Params.mergeLoop
    rw [if_neg hemp]
    dsimp only
    rw [← hm]
    clear_value m
    clear hsep m1 m2 m3
    rcases fp with ⟨p1, e, pos', rfl, p3⟩ | ⟨p1, p2⟩ <;> rcases fn with ⟨n1, f, neg', rfl, n3⟩ | ⟨n1, n2⟩ <;>
      rcases fv with ⟨v1, g, ver', rfl, v3⟩ | ⟨v1, v2⟩ <;> rw [p1, n1, v1] <;>
      simp only [Bool.toNat_true, Bool.toNat_false, Nat.reduceAdd, gt_iff_lt, Nat.reduceLT, if_true, if_false, Bool.false_eq_true, List.tail_cons]
    · -- all three
      obtain ⟨mid, h1, h2, h3⟩ := ih pos' neg' ver' out (tail ap) (tail an) (tail av) (fun x hx => dp x (List.mem_cons_of_mem _ hx))
        (fun x hx => dn x (List.mem_cons_of_mem _ hx)) (fun x hx => dv x (List.mem_cons_of_mem _ hx)) (rtail rp) (rtail rn) (rtail rv)
        (sub (List.subset_cons_self _ _) (List.subset_cons_self _ _) (List.subset_cons_self _ _)) (by simp only [List.length_cons] at hl; omega)
      refine ⟨mid, h1, ?_, h3⟩
      simp only [List.map_cons] at rp rn rv ⊢
      rw [single_three rp rn rv (p3.trans n3.symm) (p3.trans v3.symm)]
      exact h2
    · -- positive and negative
      obtain ⟨mid, h1, h2, h3⟩ := ih pos' neg' ver out (tail ap) (tail an) av
        (fun x hx => dp x (List.mem_cons_of_mem _ hx)) (fun x hx => dn x (List.mem_cons_of_mem _ hx)) dv
        (rtail rp) (rtail rn) rv
        (sub (List.subset_cons_self _ _) (List.subset_cons_self _ _) (List.Subset.refl _)) (by simp only [List.length_cons] at hl; omega)
      refine ⟨mid, h1, ?_, h3⟩
      simp only [List.map_cons] at rp rn ⊢
      rw [single_two rp rn (p3.trans n3.symm) fun v hv => by rw [p3]; exact v2 v hv]
      exact h2
    · -- positive and vertical
      obtain ⟨mid, h1, h2, h3⟩ := ih pos' neg ver' out (tail ap) an (tail av)
        (fun x hx => dp x (List.mem_cons_of_mem _ hx)) dn (fun x hx => dv x (List.mem_cons_of_mem _ hx))
        (rtail rp) rn (rtail rv)
        (sub (List.subset_cons_self _ _) (List.Subset.refl _) (List.subset_cons_self _ _)) (by simp only [List.length_cons] at hl; omega)
      refine ⟨mid, h1, ?_, h3⟩
      simp only [List.map_cons] at rp rv ⊢
      refine h2.trans ((single_rotate _ _ _).trans (List.Perm.trans ?_ (single_rotate _ _ _).symm))
      rw [single_two rv rp (v3.trans p3.symm) fun v hv => by rw [v3]; exact n2 v hv]
    · -- positive
      rw [dp e List.mem_cons_self]
      obtain ⟨mid, h1, h2, h3⟩ := ih pos' neg ver (out ++ [ep e]) (tail ap) an av
        (fun x hx => dp x (List.mem_cons_of_mem _ hx)) dn dv
        (rtail rp) rn rv
        (sub (List.subset_cons_self _ _) (List.Subset.refl _) (List.Subset.refl _)) (by simp only [List.length_cons] at hl; omega)
      refine ⟨ep e :: mid, by rw [h1]; simp, ?_, rising_cons p3 h2 h3 (hhead rp p3) n2 v2⟩
      simp only [List.map_cons]
      rw [single_one (fun v hv => by rw [p3]; exact n2 v hv) fun v hv => by rw [p3]; exact v2 v hv]
      exact h2.cons _
    · -- negative and vertical
      obtain ⟨mid, h1, h2, h3⟩ := ih pos neg' ver' out ap (tail an) (tail av)
        dp (fun x hx => dn x (List.mem_cons_of_mem _ hx)) (fun x hx => dv x (List.mem_cons_of_mem _ hx))
        rp (rtail rn) (rtail rv)
        (sub (List.Subset.refl _) (List.subset_cons_self _ _) (List.subset_cons_self _ _)) (by simp only [List.length_cons] at hl; omega)
      refine ⟨mid, h1, ?_, h3⟩
      simp only [List.map_cons] at rn rv ⊢
      refine h2.trans ((single_rotate _ _ _).trans ((single_rotate _ _ _).trans
        (List.Perm.trans ?_ ((single_rotate _ _ _).trans (single_rotate _ _ _)).symm)))
      rw [single_two rn rv (n3.trans v3.symm) fun v hv => by rw [n3]; exact p2 v hv]
    · -- negative
      rw [dn f List.mem_cons_self]
      obtain ⟨mid, h1, h2, h3⟩ := ih pos neg' ver (out ++ [en f]) ap (tail an) av
        dp (fun x hx => dn x (List.mem_cons_of_mem _ hx)) dv
        rp (rtail rn) rv
        (sub (List.Subset.refl _) (List.subset_cons_self _ _) (List.Subset.refl _)) (by simp only [List.length_cons] at hl; omega)
      refine ⟨en f :: mid, by rw [h1]; simp, ?_, rising_cons n3 h2 h3 p2 (hhead rn n3) v2⟩
      simp only [List.map_cons]
      refine List.Perm.trans ?_ (single_swap _ _ _)
      rw [single_one (fun v hv => by rw [n3]; exact p2 v hv) fun v hv => by rw [n3]; exact v2 v hv]
      exact (h2.trans (single_swap _ _ _)).cons _
    · -- vertical
      rw [dv g List.mem_cons_self]
      obtain ⟨mid, h1, h2, h3⟩ := ih pos neg ver' (out ++ [ev g]) ap an (tail av)
        dp dn (fun x hx => dv x (List.mem_cons_of_mem _ hx))
        rp rn (rtail rv)
        (sub (List.Subset.refl _) (List.Subset.refl _) (List.subset_cons_self _ _)) (by simp only [List.length_cons] at hl; omega)
      refine ⟨ev g :: mid, by rw [h1]; simp, ?_, rising_cons v3 h2 h3 p2 n2 (hhead rv v3)⟩
      simp only [List.map_cons]
      refine List.Perm.trans ?_ (single_rotate _ _ _).symm
      rw [single_one (fun v hv => by rw [v3]; exact p2 v hv) fun v hv => by rw [v3]; exact n2 v hv]
      exact (h2.trans (single_rotate _ _ _)).cons _
    · -- none
      exfalso
      simp only [List.mem_append] at hv0
      rcases hv0 with (h | h) | h
      · exact absurd (p2 v0 h) (by rw [hv0m]; exact lt_irrefl _)
      · exact absurd (n2 v0 h) (by rw [hv0m]; exact lt_irrefl _)
      · exact absurd (v2 v0 h) (by rw [hv0m]; exact lt_irrefl _)

/-! ## Separated coordinates -/

/-- Two elements are equal or farther apart than twice the tolerance. -/
def SepList (tol : K) (l : List K) : Prop := ∀ a ∈ l, ∀ b ∈ l, a = b ∨ 2 * tol < |a - b|

/-- The coordinates are in the lists. -/
def Grid (xs ys : List K) (p : P2 K) : Prop := p.x ∈ xs ∧ p.y ∈ ys

theorem sepList_eq {tol : K} (ht : 0 < tol) {l : List K} (h : SepList tol l) {a b : K} (ha : a ∈ l) (hb : b ∈ l) (hn : |a - b| ≤ 2 * tol) : a = b :=
  (h a ha b hb).resolve_right (not_lt.2 hn)

theorem grid_near {tol : K} (ht : 0 < tol) {xs ys : List K} (hx : SepList tol xs) (hy : SepList tol ys) {a b : P2 K} (ha : Grid xs ys a)
    (hb : Grid xs ys b) (hn : near (2 * tol) a b) : a = b := by
  have e1 := sepList_eq ht hx ha.1 hb.1 hn.1.le
  have e2 := sepList_eq ht hy ha.2 hb.2 hn.2
  cases a; cases b; simp_all

theorem separated_lists {tol : K} {S : List (P2 K)} (h : Separated tol S) : SepList tol (S.map (·.x)) ∧ SepList tol (S.map (·.y)) := by
  constructor
  · intro a ha b hb
    obtain ⟨p, hp, rfl⟩ := List.mem_map.1 ha
    obtain ⟨q, hq, rfl⟩ := List.mem_map.1 hb
    exact (h p hp q hq).1
  · intro a ha b hb
    obtain ⟨p, hp, rfl⟩ := List.mem_map.1 ha
    obtain ⟨q, hq, rfl⟩ := List.mem_map.1 hb
    exact (h p hp q hq).2

/-! ## The closing edges -/

/-- An edge between points that are not near each other is stored. -/
theorem insertEdge_far {tol : K} (ht : 0 < tol) {bal : Tree K → Tree K} {c c' : Cont K} {v1 v2 n : P2 K} (hw : c.WF)
    (hf : ¬ near (2 * tol) v1 v2) (h : c.insertEdge tol bal v1 v2 n = .ok c') : c'.edges.length = c.edges.length + 1 := by
  have hl : ∀ (d d' : Cont K) (p : P2 K) (i : Nat), d.insertVertex tol bal p i = .ok d' → d'.edges = d.edges := by
    intro d d' p i h
    unfold Cont.insertVertex at h
    split at h
    · dsimp only at h
      split at h
      · exact absurd h (by simp)
      · cases h
        unfold Cont.pushVertex
        split <;> rfl
    · split at h
      · exact absurd h (by simp)
      · cases h; rfl
  have hne : ∀ i1 i2, c.uniqueIds tol v1 v2 = .ok (i1, i2) → i1 ≠ i2 := by
    intro i1 i2 h
    have h2 : tol ≤ 2 * tol := by linarith
    unfold Cont.uniqueIds Cont.find at h
    split at h
    · rename_i hl
      simp only [Bool.and_eq_true, Bool.not_eq_true'] at hl
      exact absurd (near.mono h2 (near_of_not_less hl.1 hl.2)) hf
    cases hst : c.stale
    · rw [hst] at h
      simp only [Bool.false_eq_true, if_false] at h
      split at h
      · rename_i hr
        obtain ⟨i, hi⟩ := Option.isSome_iff_exists.1 hr.2
        obtain ⟨p, hp, hn⟩ := find_spec hi
        rw [hi] at hr
        obtain ⟨q, hq, hm⟩ := find_spec hr.1.symm
        have e1 := hw.set _ hp
        have e2 := hw.set _ hq
        dsimp only at e1 e2
        rw [e1] at e2
        cases e2
        exact absurd (near.trans2 hn.symm hm) hf
      · rename_i hr
        simp only [Except.ok.injEq, Prod.mk.injEq] at h
        rw [← h.1, ← h.2]
        have hlt : ∀ (v : P2 K) i, c.set.find tol v = some i → i < c.verts.length := by
          intro v i hi
          obtain ⟨p, hp, _⟩ := find_spec hi
          exact (List.getElem?_eq_some_iff.1 (hw.set _ hp)).1
        cases h1 : c.set.find tol v1 with
        | none =>
          cases h2 : c.set.find tol v2 with
          | none => simp
          | some j =>
            have := hlt v2 j h2
            simp; omega
        | some i =>
          have := hlt v1 i h1
          cases h2 : c.set.find tol v2 with
          | none => simp; omega
          | some j =>
            rw [h1, h2] at hr
            simp at hr ⊢
            exact hr
    · rw [hst] at h
      simp at h
  unfold Cont.insertEdge at h
  split at h
  · exact absurd h (by simp)
  rename_i i1 i2 hids
  rw [if_pos (hne i1 i2 hids)] at h
  split at h
  · exact absurd h (by simp)
  rename_i ca hca
  split at h
  · exact absurd h (by simp)
  rename_i cb hcb
  cases h
  rw [Cont.pushEdge]
  simp [hl _ _ _ _ hcb, hl _ _ _ _ hca]

theorem insertTop_exact {P : Params K} (hP : P.Sound) {xs ys : List K} (hx : SepList P.tol xs) (hy : SepList P.tol ys)
    (hty : P.up.get P.d2 ∈ ys) {c c' : Cont K} {l r : K} (hw : c.WF) (hg : ∀ q ∈ c.verts, Grid xs ys q) (hl : l ∈ xs) (hr : r ∈ xs)
    (hlr : l < r) (h : P.insertTop c l r = .ok c') : c'.WF ∧ (∀ q ∈ c'.verts, Grid xs ys q) ∧
      c'.edges.map c'.ends = c.edges.map c.ends ++ [(⟨l, P.up.get P.d2⟩, ⟨r, P.up.get P.d2⟩)] ∧ c.verts <+: c'.verts ∧
      c'.edges.map (·.split) = c.edges.map (·.split) ++ [[]] := by
  have htol := hP.tol_pos
  unfold Params.insertTop at h
  have hfar : ¬ near (2 * P.tol) (⟨l, P.up.get P.d2⟩ : P2 K) ⟨r, P.up.get P.d2⟩ := by
    intro hn
    have := sepList_eq htol hx hl hr hn.1.le
    exact absurd this (ne_of_lt hlr)
  have hlen := insertEdge_far htol hw hfar h
  obtain ⟨w, hpre, hcase⟩ := insertEdge_of_ok htol hP.bal hw h
  have hnew := insertEdge_new h
  have hg' : ∀ q ∈ c'.verts, Grid xs ys q := by
    intro q hq
    rcases hnew q hq with h | rfl | rfl
    · exact hg q h
    · exact ⟨hl, hty⟩
    · exact ⟨hr, hty⟩
  rcases hcase with h0 | ⟨i1, i2, h1, h2, h3⟩
  · rw [h0] at hlen; omega
  refine ⟨w, hg', ?_, hpre, by rw [h1]; simp⟩
  have hin := w.edges ⟨i1, i2, ⟨0, 1⟩, [], false, false⟩ (by rw [h1]; simp)
  have h12 : P.tol ≤ 2 * P.tol := by linarith
  have e1 := grid_near htol hx hy (hg' _ (pt_mem hin.1)) ⟨hl, hty⟩ (h2.mono h12)
  have e2 := grid_near htol hx hy (hg' _ (pt_mem hin.2)) ⟨hr, hty⟩ (h3.mono h12)
  rw [h1, List.map_append, List.map_singleton]
  congr 1
  · apply List.map_congr_left
    intro f hf
    have hi := hw.edges f hf
    unfold Cont.ends
    rw [pt_prefix hpre hi.1, pt_prefix hpre hi.2]
  · unfold Cont.ends
    dsimp only
    dsimp only at e1 e2
    rw [e1, e2]

theorem insertTops_exact {P : Params K} (hP : P.Sound) {xs ys : List K} (hx : SepList P.tol xs) (hy : SepList P.tol ys)
    (hty : P.up.get P.d2 ∈ ys) : ∀ (vs : List (K × Bool)) (c c' : Cont K), c.WF → (∀ q ∈ c.verts, Grid xs ys q) →
    (∀ v ∈ vs, v.1 ∈ xs) → Rising vs → P.insertTops vs c = .ok c' → c'.WF ∧ (∀ q ∈ c'.verts, Grid xs ys q) ∧
      c'.edges.map c'.ends = c.edges.map c.ends ++ P.covered vs ∧
      ((∀ e ∈ c.edges, e.split = []) → ∀ e ∈ c'.edges, e.split = []) := by
  intro vs
  induction vs with
  | nil =>
    intro c c' hw hg _ _ h
    simp only [Params.insertTops] at h
    cases h
    exact ⟨hw, hg, by simp [Params.covered], fun h => h⟩
  | cons a vs ih =>
    intro c c' hw hg hv hr h
    cases vs with
    | nil =>
      simp only [Params.insertTops] at h
      cases h
      exact ⟨hw, hg, by simp [Params.covered], fun h => h⟩
    | cons b rest =>
      unfold Rising at hr
      obtain ⟨hr1, hr2⟩ := List.pairwise_cons.1 hr
      simp only [Params.insertTops] at h
      simp only [Params.covered]
      cases hab : (a.2 && !b.2)
      · rw [hab] at h
        simp only [Bool.false_eq_true, if_false] at h ⊢
        rw [List.nil_append]
        exact ih c c' hw hg (fun v hv' => hv v (List.mem_cons_of_mem _ hv')) hr2 h
      · rw [hab] at h
        simp only [if_true] at h ⊢
        split at h
        · exact absurd h (by simp)
        rename_i d hd
        obtain ⟨d1, d2, d3, d4, d5⟩ := insertTop_exact hP hx hy hty hw hg (hv a (by simp)) (hv b (by simp)) (hr1 b (by simp)) hd
        obtain ⟨k1, k2, k3, k4⟩ := ih d c' d1 d2 (fun v hv' => hv v (List.mem_cons_of_mem _ hv')) hr2 h
        refine ⟨k1, k2, by rw [k3, d3, List.append_assoc], fun hs => k4 ?_⟩
        intro e he
        have hmem : e.split ∈ d.edges.map (·.split) := List.mem_map.2 ⟨e, he, rfl⟩
        rw [d5, List.mem_append, List.mem_singleton] at hmem
        rcases hmem with hm | hm
        · obtain ⟨f, hf, hfe⟩ := List.mem_map.1 hm
          rw [← hfe]; exact hs f hf
        · exact hm

/-! ## What is stored -/

/-- With separated ends the stored edges are the given ones. -/
theorem stored_exact {P : Params K} (hP : P.Sound) {xs ys : List K} (hx : SepList P.tol xs) (hy : SepList P.tol ys)
    {es : List (Given K)} (hg : ∀ p ∈ P.points es, Grid xs ys p) (hne : ∀ e ∈ es, (P.ends e.1 e.2.1).1 ≠ (P.ends e.1 e.2.1).2)
    {n : Nat} {c : Cont K} (h : P.Good n es c) :
    (c.edges.map fun f => (c.ends f, f.normal)) = es.map fun e => (P.ends e.1 e.2.1, P.proj e.2.2) := by
  have htol := hP.tol_pos
  obtain ⟨sub, s1, s2, s3⟩ := h.holds.stored
  have hnt : ∀ e ∈ es, ¬ P.tiny e := by
    intro e he ht
    have hin := ends_points (P := P) he
    exact hne e he (grid_near htol hx hy (hg _ hin.1) (hg _ hin.2) ht)
  have hf : (es.filter fun e => !decide (P.tiny e)) = es := by
    rw [List.filter_eq_self]
    intro e he
    simp [hnt e he]
  rw [hf] at s1
  have : sub = es := s2.antisymm s1
  subst this
  have hpts : ∀ p ∈ c.verts, Grid xs ys p := by
    intro p hp
    obtain ⟨e, he, h'⟩ := h.holds.verts p hp
    have hin := ends_points (P := P) he
    rcases h' with rfl | rfl
    · exact hg _ hin.1
    · exact hg _ hin.2
  have key : ∀ (l : List (Edge K)) (m : List (Given K)), List.Forall₂ (P.standsFor c) l m → (∀ e ∈ m, e ∈ sub) →
      (l.map fun f => (c.ends f, f.normal)) = m.map fun e => (P.ends e.1 e.2.1, P.proj e.2.2) := by
    intro l m hlm
    induction hlm with
    | nil => intro _; rfl
    | @cons f e l m h1 _ ih =>
      intro hm
      rw [List.map_cons, List.map_cons, ih fun e he => hm e (List.mem_cons_of_mem _ he)]
      congr 1
      obtain ⟨⟨p, hp, hpn⟩, ⟨q, hq, hqn⟩, _, hno⟩ := h1
      have hin := ends_points (P := P) (hm e List.mem_cons_self)
      have h2 : P.tol ≤ 2 * P.tol := by linarith
      have e1 := grid_near htol hx hy (hpts p (List.mem_of_getElem? hp)) (hg _ hin.1) (hpn.mono h2)
      have e2 := grid_near htol hx hy (hpts q (List.mem_of_getElem? hq)) (hg _ hin.2) (hqn.mono h2)
      unfold Cont.ends Cont.pt
      rw [List.getD_eq_getElem?_getD, List.getD_eq_getElem?_getD, hp, hq, Option.getD_some, Option.getD_some, e1, e2, hno]
  exact key _ _ s3 fun e he => he

/-! ## The edges that meet the upper side -/

/-- Where an intersected edge meets the upper side, and the direction of its normal. -/
def Cont.ev (c : Cont K) (f : Edge K) : K × Bool := ((c.pt (if f.on1 then f.v1 else f.v2)).x, decide (f.normal.x < 0))

/-- The mark of an edge with exactly one end on the upper side. -/
def Params.mark (P : Params K) (c : Cont K) (e : Edge K) : Option (Edge K) :=
  if P.onTop (c.pt e.v1) ^^ P.onTop (c.pt e.v2) then some { e with on1 := P.onTop (c.pt e.v1), on2 := P.onTop (c.pt e.v2) } else none

omit [IsStrictOrderedRing K] in
theorem intersecting_mark (P : Params K) (c : Cont K) : P.intersecting c = P.sortE c.verts (c.edges.filterMap (P.mark c)) := rfl

omit [IsStrictOrderedRing K] in
theorem mark_some {P : Params K} {c : Cont K} {e f : Edge K} (h : P.mark c e = some f) :
    f.v1 = e.v1 ∧ f.v2 = e.v2 ∧ f.normal = e.normal ∧ f.on1 = P.onTop (c.pt e.v1) ∧ f.on2 = P.onTop (c.pt e.v2) ∧
      P.crossingOf (c.ends e) e.normal = some (c.ev f) ∧ (f.on1 ^^ f.on2) = true := by
  unfold Params.mark at h
  split at h
  · rename_i hx
    cases h
    refine ⟨rfl, rfl, rfl, rfl, rfl, ?_, hx⟩
    unfold Params.crossingOf Cont.ev Cont.ends
    dsimp only
    cases h1 : P.onTop (c.pt e.v1) <;> cases h2 : P.onTop (c.pt e.v2) <;> simp_all
  · exact absurd h (by simp)

omit [IsStrictOrderedRing K] in
theorem mark_none {P : Params K} {c : Cont K} {e : Edge K} (h : P.mark c e = none) : P.crossingOf (c.ends e) e.normal = none := by
  unfold Params.mark at h
  split at h
  · exact absurd h (by simp)
  · rename_i hx
    unfold Params.crossingOf Cont.ends
    dsimp only
    cases h1 : P.onTop (c.pt e.v1) <;> cases h2 : P.onTop (c.pt e.v2) <;> simp_all

omit [IsStrictOrderedRing K] in
theorem mark_ev (P : Params K) (c : Cont K) (e : Edge K) : (P.mark c e).map c.ev = P.crossingOf (c.ends e) e.normal := by
  cases h : P.mark c e with
  | none => rw [mark_none h]; rfl
  | some f => rw [(mark_some h).2.2.2.2.2.1]; rfl

/-- Two edges that do not meet the upper side at the same place or run between the same places. -/
def Params.Differ (P : Params K) (u v : (P2 K × P2 K) × P2 K) : Prop := ∀ x y, P.crossingOf u.1 u.2 = some x → P.crossingOf v.1 v.2 = some y →
  x.1 ≠ y.1 ∧ (u.1.1.x ≠ v.1.1.x ∨ u.1.2.x ≠ v.1.2.x)

/-- The same for intersected edges. -/
def Cont.Differ (c : Cont K) (a b : Edge K) : Prop :=
  (c.ev a).1 ≠ (c.ev b).1 ∧ ((c.pt a.v1).x ≠ (c.pt b.v1).x ∨ (c.pt a.v2).x ≠ (c.pt b.v2).x)

theorem intersecting_spec {P : Params K} (hP : P.Sound) (hsort : P.SortsTop) {c : Cont K}
    (hd : (c.edges.map fun f => (c.ends f, f.normal)).Pairwise P.Differ) :
    ((P.intersecting c).map c.ev).Perm ((c.edges.map fun f => (c.ends f, f.normal)).filterMap fun u => P.crossingOf u.1 u.2) ∧
    Rising ((P.intersecting c).map c.ev) ∧ (P.intersecting c).Pairwise c.Differ ∧
    ∀ f ∈ P.intersecting c, ∃ e ∈ c.edges, P.mark c e = some f := by
  rw [intersecting_mark]
  have hperm := hP.sortE c.verts (c.edges.filterMap (P.mark c))
  have hd0 : (c.edges.filterMap (P.mark c)).Pairwise c.Differ := by
    rw [List.pairwise_filterMap]
    rw [List.pairwise_map] at hd
    refine hd.imp ?_
    intro a b hab f hf g hg
    obtain ⟨f1, f2, f3, f4, f5, f6, -⟩ := mark_some hf
    obtain ⟨g1, g2, g3, g4, g5, g6, -⟩ := mark_some hg
    have := hab _ _ f6 g6
    unfold Cont.Differ
    rw [f1, f2, g1, g2]
    exact this
  have hdL : (P.sortE c.verts (c.edges.filterMap (P.mark c))).Pairwise c.Differ := by
    refine (hperm.pairwise_iff ?_).2 hd0
    intro a b hab
    exact ⟨hab.1.symm, hab.2.imp Ne.symm Ne.symm⟩
  refine ⟨?_, ?_, hdL, ?_⟩
  · refine (hperm.map c.ev).trans (List.Perm.of_eq ?_)
    rw [List.map_filterMap, List.filterMap_map]
    congr 1
    funext e
    exact mark_ev P c e
  · have h1 := hsort c.verts (c.edges.filterMap (P.mark c)) (hd0.imp fun h => h.1)
    unfold Rising
    rw [List.pairwise_map]
    refine (h1.and hdL).imp ?_
    intro a b hab
    exact lt_of_le_of_ne hab.1 hab.2.1
  · intro f hf
    rw [hperm.mem_iff, List.mem_filterMap] at hf
    exact hf

/-! ## Nothing is removed -/

theorem uniqueFrom_id {α : Type} {same : α → α → Bool} : ∀ (l : List α) (a : α), (a :: l).Pairwise (fun a b => same a b = false) →
    uniqueFrom same a l = a :: l := by
  intro l
  induction l with
  | nil => intro a _; rfl
  | cons b l ih =>
    intro a h
    obtain ⟨h1, h2⟩ := List.pairwise_cons.1 h
    simp only [uniqueFrom]
    rw [h1 b (by simp), ih b h2]
    simp

theorem uniqueBy_id {α : Type} {same : α → α → Bool} {l : List α} (h : l.Pairwise (fun a b => same a b = false)) : uniqueBy same l = l := by
  cases l with
  | nil => rfl
  | cons a l => exact uniqueFrom_id l a h

theorem filter_one {α : Type} {close : α → α → Bool} (hr : ∀ a, close a a = true) (hsym : ∀ a b, close a b = close b a) :
    ∀ l : List α, l.Pairwise (fun a b => close a b = false) → ∀ a ∈ l, (l.filter fun b => close a b).length = 1 := by
  intro l
  induction l with
  | nil => intro _ a ha; simp at ha
  | cons b l ih =>
    intro h a ha
    obtain ⟨h1, h2⟩ := List.pairwise_cons.1 h
    rw [List.filter_cons]
    rcases List.mem_cons.1 ha with rfl | ha
    · rw [hr, if_pos rfl]
      have : (l.filter fun b => close a b) = [] := by
        rw [List.filter_eq_nil_iff]
        intro x hx
        rw [h1 x hx]
        simp
      rw [this]; rfl
    · rw [hsym, h1 a ha]
      simp only [Bool.false_eq_true, if_false]
      exact ih h2 a ha

theorem dedup_id {P : Params K} (ht : 0 < P.tol) {xs : List K} (hx : SepList P.tol xs) {c : Cont K} (hg : ∀ q ∈ c.verts, q.x ∈ xs)
    {L : List (Edge K)} (hin : ∀ f ∈ L, f.v1 < c.verts.length ∧ f.v2 < c.verts.length) (hd : L.Pairwise c.Differ) : P.dedup c L = L := by
  unfold Params.dedup
  apply uniqueBy_id
  refine (List.pairwise_iff_forall_sublist.2 ?_)
  intro a b hab
  have hd' := List.pairwise_iff_forall_sublist.1 hd hab
  have ha := hin a (hab.subset (by simp))
  have hb := hin b (hab.subset (by simp))
  simp only [Bool.and_eq_false_iff, decide_eq_false_iff_not, not_lt]
  rcases hd'.2 with h | h
  · left
    by_contra hn
    exact h (sepList_eq ht hx (hg _ (pt_mem ha.1)) (hg _ (pt_mem hb.1)) (by linarith [not_le.1 hn]))
  · right
    by_contra hn
    exact h (sepList_eq ht hx (hg _ (pt_mem ha.2)) (hg _ (pt_mem hb.2)) (by linarith [not_le.1 hn]))

theorem dedupVertical_id {P : Params K} (ht : 0 < P.tol) {xs : List K} (hx : SepList P.tol xs) {c : Cont K} (hg : ∀ q ∈ c.verts, q.x ∈ xs)
    {L : List (Edge K)} (hin : ∀ f ∈ L, f.v1 < c.verts.length ∧ f.v2 < c.verts.length) (hv : ∀ f ∈ L, (c.pt f.v1).x = (c.pt f.v2).x)
    (hd : L.Pairwise c.Differ) : P.dedupVertical c L = L := by
  have hev : ∀ f ∈ L, (c.ev f).1 = (c.pt f.v1).x := by
    intro f hf
    unfold Cont.ev
    dsimp only
    split
    · rfl
    · exact (hv f hf).symm
  have hclose : L.Pairwise fun a b => decide (|(c.pt a.v1).x - (c.pt b.v1).x| < P.tol) = false := by
    refine (List.pairwise_iff_forall_sublist.2 ?_)
    intro a b hab
    have hd' := List.pairwise_iff_forall_sublist.1 hd hab
    have ha := hab.subset (show a ∈ [a, b] by simp)
    have hb := hab.subset (show b ∈ [a, b] by simp)
    rw [decide_eq_false_iff_not]
    intro hn
    apply hd'.1
    rw [hev a ha, hev b hb]
    exact sepList_eq ht hx (hg _ (pt_mem (hin a ha).1)) (hg _ (pt_mem (hin b hb).1)) (by linarith)
  unfold Params.dedupVertical
  dsimp only
  rw [uniqueBy_id (hclose.imp fun h => by rw [h, Bool.and_false]), List.filter_eq_self]
  intro f hf
  have := filter_one (close := fun a b : Edge K => decide (|(c.pt a.v1).x - (c.pt b.v1).x| < P.tol))
    (by intro a; simp [ht]) (by intro a b; rw [abs_sub_comm]) L hclose f hf
  rw [this]
  rfl

/-! ## Beginning or end -/

theorem ends_le (P : Params K) (a b : V3 K) : (P.ends a b).1.x ≤ (P.ends a b).2.x := by
  unfold Params.ends Params.proj
  split
  · rename_i h; exact h.le
  · rename_i h; exact not_lt.1 h

theorem orient_cases {P : Params K} (hP : P.Sound) {a b n : V3 K} {o : Orient} (h : P.orient a b n = some o) :
    (P.ends a b).1 ≠ (P.ends a b).2 ∧
    (o = .positive → 0 < (P.ends a b).2.x - (P.ends a b).1.x ∧ P.zt < (P.proj n).y) ∧
    (o = .negative → 0 < (P.ends a b).2.x - (P.ends a b).1.x ∧ (P.proj n).y < -P.zt) := by
  have htol := hP.tol_pos
  have hle := ends_le P a b
  have hpos : P.tol < |(P.ends a b).1.x - (P.ends a b).2.x| → 0 < (P.ends a b).2.x - (P.ends a b).1.x := by
    intro h
    rw [abs_sub_comm, abs_of_nonneg (by linarith)] at h
    linarith
  have hny : P.tol < |(P.ends a b).1.y - (P.ends a b).2.y| → (P.ends a b).1 ≠ (P.ends a b).2 := by
    intro h h0
    rw [h0, sub_self, abs_zero] at h
    linarith
  have hnx : P.tol < |(P.ends a b).1.x - (P.ends a b).2.x| → (P.ends a b).1 ≠ (P.ends a b).2 := by
    intro h h0
    rw [h0, sub_self, abs_zero] at h
    linarith
  unfold Params.orient at h
  dsimp only at h
  split at h
  · rename_i hx
    split at h
    · rename_i hn
      cases h
      exact ⟨hnx hx, fun _ => ⟨hpos hx, hn⟩, fun h => absurd h (by simp)⟩
    · split at h
      · rename_i hn
        cases h
        exact ⟨hnx hx, fun h => absurd h (by simp), fun _ => ⟨hpos hx, hn⟩⟩
      · split at h
        · cases h
          exact ⟨hnx hx, fun h => absurd h (by simp), fun h => absurd h (by simp)⟩
        · exact absurd h (by simp)
  · split at h
    · rename_i hy
      cases h
      exact ⟨hny hy, fun h => absurd h (by simp), fun h => absurd h (by simp)⟩
    · exact absurd h (by simp)

omit [IsStrictOrderedRing K] in
theorem onTop_lt [IsStrictOrderedRing K] {P : Params K} {p q : P2 K} (h1 : P.onTop p = true) (h2 : P.onTop q = false) (hp : p.y ≤ P.up.get P.d2)
    (hq : q.y ≤ P.up.get P.d2) : q.y < p.y := by
  unfold Params.onTop at h1 h2
  rw [decide_eq_true_eq, abs_sub_comm, abs_of_nonneg (by linarith)] at h1
  rw [decide_eq_false_iff_not, abs_sub_comm, abs_of_nonneg (by linarith)] at h2
  linarith [not_lt.1 h2]

theorem addPositive_ev {P : Params K} (hzt : 0 < P.zt) {c : Cont K} {e f : Edge K} (hm : P.mark c e = some f)
    (hdx : 0 < (c.ends e).2.x - (c.ends e).1.x) (hn : P.zt < e.normal.y)
    (hperp : e.normal.x * ((c.ends e).2.x - (c.ends e).1.x) + e.normal.y * ((c.ends e).2.y - (c.ends e).1.y) = 0)
    (h1 : (c.ends e).1.y ≤ P.up.get P.d2) (h2 : (c.ends e).2.y ≤ P.up.get P.d2) : P.addPositive c f = [c.ev f] := by
  obtain ⟨m1, m2, m3, m4, m5, m6, m7⟩ := mark_some hm
  have hny : 0 < e.normal.y := hzt.trans hn
  cases ha : f.on1
  · have hb : f.on2 = true := by rw [ha] at m7; simpa using m7
    rw [m4] at ha
    rw [m5] at hb
    have hdy : (c.ends e).1.y < (c.ends e).2.y := onTop_lt hb ha h2 h1
    have hx : e.normal.x < 0 := by
      by_contra h
      have h3 : 0 ≤ e.normal.x * ((c.ends e).2.x - (c.ends e).1.x) := mul_nonneg (not_lt.1 h) hdx.le
      have h4 : 0 < e.normal.y * ((c.ends e).2.y - (c.ends e).1.y) := mul_pos hny (by linarith)
      linarith
    rw [← m4] at ha
    rw [← m5] at hb
    unfold Params.addPositive Cont.ev
    rw [ha, hb, m3]
    simp [hx, hx.trans hzt]
  · have hb : f.on2 = false := by rw [ha] at m7; simpa using m7
    rw [m4] at ha
    rw [m5] at hb
    have hdy : (c.ends e).2.y < (c.ends e).1.y := onTop_lt ha hb h1 h2
    have hx : 0 < e.normal.x := by
      by_contra h
      have h3 : e.normal.x * ((c.ends e).2.x - (c.ends e).1.x) ≤ 0 := mul_nonpos_of_nonpos_of_nonneg (not_lt.1 h) hdx.le
      have h4 : 0 < e.normal.y * ((c.ends e).1.y - (c.ends e).2.y) := mul_pos hny (by linarith)
      linarith
    rw [← m4] at ha
    unfold Params.addPositive Cont.ev
    rw [ha, m3]
    have hx' : -P.zt < e.normal.x := by linarith
    simp [hx', hx.le]

theorem addNegative_ev {P : Params K} (hzt : 0 < P.zt) {c : Cont K} {e f : Edge K} (hm : P.mark c e = some f)
    (hdx : 0 < (c.ends e).2.x - (c.ends e).1.x) (hn : e.normal.y < -P.zt)
    (hperp : e.normal.x * ((c.ends e).2.x - (c.ends e).1.x) + e.normal.y * ((c.ends e).2.y - (c.ends e).1.y) = 0)
    (h1 : (c.ends e).1.y ≤ P.up.get P.d2) (h2 : (c.ends e).2.y ≤ P.up.get P.d2) : P.addNegative c f = [c.ev f] := by
  obtain ⟨m1, m2, m3, m4, m5, m6, m7⟩ := mark_some hm
  have hny : 0 < -e.normal.y := by linarith
  cases ha : f.on1
  · have hb : f.on2 = true := by rw [ha] at m7; simpa using m7
    rw [m4] at ha
    rw [m5] at hb
    have hdy : (c.ends e).1.y < (c.ends e).2.y := onTop_lt hb ha h2 h1
    have hx : 0 < e.normal.x := by
      by_contra h
      have h3 : e.normal.x * ((c.ends e).2.x - (c.ends e).1.x) ≤ 0 := mul_nonpos_of_nonpos_of_nonneg (not_lt.1 h) hdx.le
      have h4 : 0 < -e.normal.y * ((c.ends e).2.y - (c.ends e).1.y) := mul_pos hny (by linarith)
      linarith
    rw [← m4] at ha
    rw [← m5] at hb
    unfold Params.addNegative Cont.ev
    rw [ha, hb, m3]
    have hx' : -P.zt < e.normal.x := by linarith
    simp [hx', hx.le]
  · have hb : f.on2 = false := by rw [ha] at m7; simpa using m7
    rw [m4] at ha
    rw [m5] at hb
    have hdy : (c.ends e).2.y < (c.ends e).1.y := onTop_lt ha hb h1 h2
    have hx : e.normal.x < 0 := by
      by_contra h
      have h3 : 0 ≤ e.normal.x * ((c.ends e).2.x - (c.ends e).1.x) := mul_nonneg (not_lt.1 h) hdx.le
      have h4 : 0 < -e.normal.y * ((c.ends e).1.y - (c.ends e).2.y) := mul_pos hny (by linarith)
      linarith
    rw [← m4] at ha
    unfold Params.addNegative Cont.ev
    rw [ha, m3]
    simp [hx, hx.trans hzt]

theorem addVertical_ev {P : Params K} (hzt : 0 < P.zt) {c : Cont K} {e f : Edge K} (hm : P.mark c e = some f)
    (hv : (c.ends e).1.x = (c.ends e).2.x) (hn : P.zt ≤ |e.normal.x|) : P.addVertical c f = [c.ev f] := by
  obtain ⟨m1, m2, m3, m4, m5, m6, m7⟩ := mark_some hm
  have hor : (f.on1 || f.on2) = true := by
    cases h1 : f.on1 <;> cases h2 : f.on2 <;> simp_all
  have hp : (c.pt (if f.on1 = true then f.v1 else f.v2)).x = (c.pt f.v1).x := by
    rw [m1, m2]
    split
    · rfl
    · exact hv.symm
  unfold Params.addVertical Cont.ev
  rw [hor, hp, m3]
  simp only [if_true]
  rcases le_abs.1 hn with h | h
  · rw [if_neg (not_lt.2 h)]
    simp only [not_lt.2 (hzt.le.trans h), decide_false]
  · rw [if_pos (by linarith)]
    have : e.normal.x < 0 := by linarith
    simp only [this, decide_true]

/-! ## The places on the upper side -/

/-- The coordinates of a contour. -/
def Params.coords (P : Params K) (es : List (Given K)) : List (P2 K) := P.topLeft :: P.topRight :: P.points es

omit [IsStrictOrderedRing K] in
theorem ofOrient_points {P : Params K} {o : Orient} {es : List (Given K)} {p : P2 K} (h : p ∈ P.points (P.ofOrient o es)) : p ∈ P.points es := by
  unfold Params.points at h ⊢
  obtain ⟨e, he, hp⟩ := List.mem_flatMap.1 h
  exact List.mem_flatMap.2 ⟨e, List.mem_of_mem_filter he, hp⟩

/-- What is known about one container. -/
structure Params.Stored (P : Params K) (o : Orient) (es : List (Given K)) (c : Cont K) : Prop where
  wf : c.WF
  fresh : c.stale = false
  plain : ∀ e ∈ c.edges, e.split = []
  edges : (c.edges.map fun f => (c.ends f, f.normal)) = (P.ofOrient o es).map fun e => (P.ends e.1 e.2.1, P.proj e.2.2)
  verts : ∀ p, p ∈ c.verts ↔ p ∈ P.points (P.ofOrient o es)
  find : ∀ p ∈ P.coords es, c.set.find P.tol p = none ↔ p ∉ c.verts
  apart : c.Apart P.tol (P.coords es)

theorem collect_stored {P : Params K} (hP : P.Sound) {es : List (Given K)} (hg : P.General es) {s : State K} (hc : P.collect es = .ok s) :
    ∀ o, P.Stored o es (s.get o) := by
  have htol := hP.tol_pos
  obtain ⟨s', hs, hgood⟩ := collect_ok hP es
  rw [hc] at hs
  cases hs
  obtain ⟨hx, hy⟩ := separated_lists hg.separated
  have hcl := separated_clustered htol hg.separated
  have hin : ∀ p ∈ P.points es, p ∈ P.topLeft :: P.topRight :: P.points es := fun p hp =>
    List.mem_cons_of_mem _ (List.mem_cons_of_mem _ hp)
  have hap := collectLoop_apart hP hcl es ⟨.empty (max (3 * es.length) 10), .empty (max (3 * es.length) 10), .empty (max (3 * es.length) 10)⟩ s
    (fun e he => ⟨hin _ (ends_points he).1, hin _ (ends_points he).2⟩)
    (by intro o; cases o <;> exact apart_empty _ _ _) hc
  intro o
  have g := hgood o
  have hgrid : ∀ p ∈ P.points (P.ofOrient o es), Grid ((P.topLeft :: P.topRight :: P.points es).map (·.x))
      ((P.topLeft :: P.topRight :: P.points es).map (·.y)) p := by
    intro p hp
    have := hin p (ofOrient_points hp)
    exact ⟨List.mem_map.2 ⟨p, this, rfl⟩, List.mem_map.2 ⟨p, this, rfl⟩⟩
  have hne : ∀ e ∈ P.ofOrient o es, (P.ends e.1 e.2.1).1 ≠ (P.ends e.1 e.2.1).2 := by
    intro e he
    have := (List.mem_filter.1 he).2
    rw [decide_eq_true_eq] at this
    exact (orient_cases hP this).1
  have hst := stored_exact hP hx hy hgrid hne g
  have hverts : ∀ p, p ∈ (s.get o).verts ↔ p ∈ P.points (P.ofOrient o es) := by
    intro p
    constructor
    · intro hp
      obtain ⟨e, he, h'⟩ := g.holds.verts p hp
      have h2 := ends_points (P := P) he
      rcases h' with rfl | rfl
      · exact h2.1
      · exact h2.2
    · intro hp
      unfold Params.points at hp
      obtain ⟨e, he, hpe⟩ := List.mem_flatMap.1 hp
      have : (P.ends e.1 e.2.1, P.proj e.2.2) ∈ (s.get o).edges.map fun f => ((s.get o).ends f, f.normal) := by
        rw [hst]; exact List.mem_map.2 ⟨e, he, rfl⟩
      obtain ⟨f, hf, hfe⟩ := List.mem_map.1 this
      have hlt := g.wf.edges f hf
      have hfe' : (s.get o).ends f = P.ends e.1 e.2.1 := congrArg Prod.fst hfe
      have hcase : p = (P.ends e.1 e.2.1).1 ∨ p = (P.ends e.1 e.2.1).2 := by
        simp only [List.mem_cons, List.not_mem_nil, or_false] at hpe
        unfold Params.ends
        split
        · exact hpe
        · exact hpe.symm
      rw [← hfe'] at hcase
      rcases hcase with h | h
      · rw [h]; exact pt_mem hlt.1
      · rw [h]; exact pt_mem hlt.2
  refine ⟨g.wf, g.fresh, g.holds.plain, hst, hverts, ?_, hap o⟩
  intro p hp
  constructor
  · intro hf hpv
    exact apart_find htol hcl (hap o) hp hf p hpv (near.refl htol p)
  · intro hn
    cases hf : (s.get o).set.find P.tol p with
    | none => rfl
    | some i =>
      obtain ⟨q, hq, hnear⟩ := find_spec hf
      have hqv := List.mem_of_getElem? (g.wf.set _ hq)
      have h2 : P.tol ≤ 2 * P.tol := by linarith
      have : q = p := separated_near htol hg.separated (hin q (ofOrient_points ((hverts q).1 hqv))) hp (hnear.mono h2)
      rw [← this] at hn
      exact absurd hqv hn

theorem missing_eq {P : Params K} {es : List (Given K)} {s : State K} (h : ∀ o, P.Stored o es (s.get o)) {p : P2 K} (hp : p ∈ P.coords es) :
    P.missing s p = .ok (!P.isEnd es p) := by
  have f1 := (h .positive).find p hp
  have f2 := (h .negative).find p hp
  have f3 := (h .vertical).find p hp
  have g1 := (h .positive).fresh
  have g2 := (h .negative).fresh
  have g3 := (h .vertical).fresh
  rw [(h .positive).verts] at f1
  rw [(h .negative).verts] at f2
  rw [(h .vertical).verts] at f3
  simp only [State.get] at f1 f2 f3 g1 g2 g3
  unfold Params.missing Cont.find Params.isEnd
  rw [g1, g2, g3]
  simp only [Bool.false_eq_true, if_false, List.any_cons, List.any_nil, Bool.or_false]
  cases h1 : s.pos.set.find P.tol p with
  | some i =>
    have : p ∈ P.points (P.ofOrient .positive es) := by
      by_contra hn
      rw [f1.2 hn] at h1
      exact absurd h1 (by simp)
    simp [this]
  | none =>
    have n1 := f1.1 h1
    cases h2 : s.neg.set.find P.tol p with
    | some i =>
      have : p ∈ P.points (P.ofOrient .negative es) := by
        by_contra hn
        rw [f2.2 hn] at h2
        exact absurd h2 (by simp)
      simp [this]
    | none =>
      have n2 := f2.1 h2
      cases h3 : s.ver.set.find P.tol p with
      | some i =>
        have : p ∈ P.points (P.ofOrient .vertical es) := by
          by_contra hn
          rw [f3.2 hn] at h3
          exact absurd h3 (by simp)
        simp [this]
      | none =>
        have n3 := f3.1 h3
        simp [n1, n2, n3]

theorem stored_differ {P : Params K} {es : List (Given K)} (hg : P.General es) (o : Orient) :
    ((P.ofOrient o es).map fun e => (P.ends e.1 e.2.1, P.proj e.2.2)).Pairwise P.Differ := by
  have h := hg.distinct o
  rw [List.pairwise_filter] at h
  rw [List.pairwise_map]
  refine h.imp ?_
  intro a b hab x y hx hy
  have ha : P.crossing a = some x := hx
  have hb : P.crossing b = some y := hy
  have := hab (by rw [ha]; rfl) (by rw [hb]; rfl)
  rw [ha, hb] at this
  refine ⟨fun h0 => this.1 (by simp [h0]), this.2⟩

/-- The intersected edges of one orientation. -/
theorem side_spec {P : Params K} (hP : P.Sound) (hsort : P.SortsTop) (hmax : P.up.get P.d1 - P.lo.get P.d1 + P.tol ≤ P.maxd)
    {es : List (Given K)} (hg : P.General es) {o : Orient} {c : Cont K} (h : P.Stored o es c) :
    ((P.intersecting c).map c.ev).Perm (P.crossings o es) ∧ Rising ((P.intersecting c).map c.ev) ∧ (P.intersecting c).Pairwise c.Differ ∧
    P.At c (P.intersecting c) c.ev ∧ (∀ f ∈ P.intersecting c, f.v1 < c.verts.length ∧ f.v2 < c.verts.length) ∧
    (∀ f ∈ P.intersecting c, ∃ e ∈ c.edges, P.mark c e = some f ∧ ∃ g ∈ P.ofOrient o es, c.ends e = P.ends g.1 g.2.1 ∧ e.normal = P.proj g.2.2) ∧
    ∀ v ∈ (P.intersecting c).map c.ev, ∃ p ∈ P.points (P.ofOrient o es), P.onTop p = true ∧ p.x = v.1 := by
  have hd := stored_differ hg o
  rw [← h.edges] at hd
  obtain ⟨h1, h2, h3, h4⟩ := intersecting_spec hP hsort hd
  have hfrom : ∀ f ∈ P.intersecting c, ∃ e ∈ c.edges, P.mark c e = some f ∧ ∃ g ∈ P.ofOrient o es, c.ends e = P.ends g.1 g.2.1 ∧
      e.normal = P.proj g.2.2 := by
    intro f hf
    obtain ⟨e, he, hm⟩ := h4 f hf
    have : (c.ends e, e.normal) ∈ c.edges.map fun f => (c.ends f, f.normal) := List.mem_map.2 ⟨e, he, rfl⟩
    rw [h.edges] at this
    obtain ⟨g, hgm, hge⟩ := List.mem_map.1 this
    exact ⟨e, he, hm, g, hgm, (congrArg Prod.fst hge).symm, (congrArg Prod.snd hge).symm⟩
  have hplace : ∀ f ∈ P.intersecting c, ∃ p ∈ P.points (P.ofOrient o es), P.onTop p = true ∧ p.x = (c.ev f).1 := by
    intro f hf
    obtain ⟨e, he, hm⟩ := h4 f hf
    obtain ⟨m1, m2, -, m4, m5, -, m7⟩ := mark_some hm
    have hlt := h.wf.edges e he
    cases hon : f.on1
    · have hb : f.on2 = true := by rw [hon] at m7; simpa using m7
      refine ⟨c.pt e.v2, (h.verts _).1 (pt_mem hlt.2), by rw [← m5]; exact hb, ?_⟩
      simp [Cont.ev, hon, m2]
    · refine ⟨c.pt e.v1, (h.verts _).1 (pt_mem hlt.1), by rw [← m4]; exact hon, ?_⟩
      simp [Cont.ev, hon, m1]
  refine ⟨?_, h2, h3, ?_, ?_, hfrom, ?_⟩
  · rw [h.edges, List.filterMap_map] at h1
    exact h1
  · intro f hf
    obtain ⟨p, hp, -, hpx⟩ := hplace f hf
    have := hg.within p (ofOrient_points hp)
    rw [hpx] at this
    exact ⟨rfl, this.1, by linarith [this.2.1]⟩
  · intro f hf
    obtain ⟨e, he, hm, -⟩ := hfrom f hf
    obtain ⟨m1, m2, -⟩ := mark_some hm
    rw [m1, m2]
    exact h.wf.edges e he
  · intro v hv
    obtain ⟨f, hf, rfl⟩ := List.mem_map.1 hv
    exact hplace f hf

theorem single_perm {A A' B B' C C' : List (K × Bool)} (hA : A.Perm A') (hB : B.Perm B') (hC : C.Perm C') :
    (single A B C).Perm (single A' B' C') := by
  have he : ∀ {l l' : List (K × Bool)}, l.Perm l' → elsewhere l = elsewhere l' := by
    intro l l' h
    funext v
    unfold elsewhere
    rw [Bool.eq_iff_iff, List.any_eq_true, List.any_eq_true]
    constructor <;> rintro ⟨w, hw, h'⟩
    · exact ⟨w, h.mem_iff.1 hw, h'⟩
    · exact ⟨w, h.mem_iff.2 hw, h'⟩
  unfold single
  rw [he hA, he hB, he hC]
  exact (hA.filter _).append ((hB.filter _).append (hC.filter _))

theorem isEnd_of_mem {P : Params K} {es : List (Given K)} {o : Orient} {p : P2 K} (h : p ∈ P.points (P.ofOrient o es)) : P.isEnd es p = true := by
  unfold Params.isEnd
  cases o <;> simp [h]

theorem isEnd_coords {P : Params K} {es : List (Given K)} {p : P2 K} (h : P.isEnd es p = true) : p ∈ P.coords es := by
  unfold Params.isEnd at h
  rw [List.any_eq_true] at h
  obtain ⟨o, -, ho⟩ := h
  rw [decide_eq_true_eq] at ho
  exact List.mem_cons_of_mem _ (List.mem_cons_of_mem _ (ofOrient_points ho))

/-- The places on the upper side and the flags of the corners. -/
theorem topVertices_spec {P : Params K} (hP : P.Sound) (hsort : P.SortsTop) (hmax : P.up.get P.d1 - P.lo.get P.d1 + P.tol ≤ P.maxd)
    (hlu : P.lo.get P.d1 < P.up.get P.d1) {es : List (Given K)} (hg : P.General es) {s : State K} (h : ∀ o, P.Stored o es (s.get o)) :
    ∃ mid vs, P.Places es mid vs ∧ (∀ v ∈ vs, (⟨v.1, P.up.get P.d2⟩ : P2 K) ∈ P.coords es) ∧
      P.topVertices s = .ok (vs, !P.isEnd es P.topLeft, !(P.isEnd es P.topRight || (P.isEnd es P.topLeft && mid.isEmpty))) := by
  have htol := hP.tol_pos
  obtain ⟨hx, hy⟩ := separated_lists hg.separated
  obtain ⟨p1, p2, p3, p4, p5, p6, p7⟩ := side_spec hP hsort hmax hg (h .positive)
  obtain ⟨n1, n2, n3, n4, n5, n6, n7⟩ := side_spec hP hsort hmax hg (h .negative)
  obtain ⟨v1, v2, v3, v4, v5, v6, v7⟩ := side_spec hP hsort hmax hg (h .vertical)
  have hgx : ∀ o, ∀ q ∈ (s.get o).verts, q.x ∈ (P.topLeft :: P.topRight :: P.points es).map (·.x) := by
    intro o q hq
    exact List.mem_map.2 ⟨q, List.mem_cons_of_mem _ (List.mem_cons_of_mem _ (ofOrient_points (((h o).verts q).1 hq))), rfl⟩
  have ep := dedup_id htol hx (hgx .positive) p5 p3
  have en := dedup_id htol hx (hgx .negative) n5 n3
  have hvv : ∀ f ∈ P.intersecting (s.get .vertical), ((s.get .vertical).pt f.v1).x = ((s.get .vertical).pt f.v2).x := by
    intro f hf
    obtain ⟨e, he, hm, g, hgm, hge, -⟩ := v6 f hf
    obtain ⟨m1, m2, -⟩ := mark_some hm
    have := (hg.vertical g hgm).1
    rw [← hge] at this
    rw [m1, m2]
    exact this
  have ev := dedupVertical_id htol hx (hgx .vertical) v5 hvv v3
  have hwithin : ∀ o, ∀ g ∈ P.ofOrient o es, (P.ends g.1 g.2.1).1.y ≤ P.up.get P.d2 ∧ (P.ends g.1 g.2.1).2.y ≤ P.up.get P.d2 := by
    intro o g hgm
    have := ends_points (P := P) (List.mem_of_mem_filter hgm)
    exact ⟨(hg.within _ this.1).2.2, (hg.within _ this.2).2.2⟩
  have hor : ∀ o, ∀ g ∈ P.ofOrient o es, P.orient g.1 g.2.1 g.2.2 = some o := by
    intro o g hgm
    have := (List.mem_filter.1 hgm).2
    rwa [decide_eq_true_eq] at this
  have ap : ∀ f ∈ P.intersecting (s.get .positive), P.addPositive (s.get .positive) f = [(s.get .positive).ev f] := by
    intro f hf
    obtain ⟨e, he, hm, g, hgm, hge, hgn⟩ := p6 f hf
    have ho := (orient_cases hP (hor _ g hgm)).2.1 rfl
    have hw := hwithin _ g hgm
    have hpp := hg.normal g (List.mem_of_mem_filter hgm)
    rw [← hge, ← hgn] at hpp
    rw [← hge, ← hgn] at ho
    rw [← hge] at hw
    exact addPositive_ev hP.zt_pos hm ho.1 ho.2 hpp hw.1 hw.2
  have an : ∀ f ∈ P.intersecting (s.get .negative), P.addNegative (s.get .negative) f = [(s.get .negative).ev f] := by
    intro f hf
    obtain ⟨e, he, hm, g, hgm, hge, hgn⟩ := n6 f hf
    have ho := (orient_cases hP (hor _ g hgm)).2.2 rfl
    have hw := hwithin _ g hgm
    have hpp := hg.normal g (List.mem_of_mem_filter hgm)
    rw [← hge, ← hgn] at hpp
    rw [← hge, ← hgn] at ho
    rw [← hge] at hw
    exact addNegative_ev hP.zt_pos hm ho.1 ho.2 hpp hw.1 hw.2
  have av : ∀ f ∈ P.intersecting (s.get .vertical), P.addVertical (s.get .vertical) f = [(s.get .vertical).ev f] := by
    intro f hf
    obtain ⟨e, he, hm, g, hgm, hge, hgn⟩ := v6 f hf
    have ho := hg.vertical g hgm
    rw [← hge, ← hgn] at ho
    exact addVertical_ev hP.zt_pos hm ho.1 ho.2
  -- all places are separated, and are ends of edges on the upper side
  have hall : ∀ v ∈ (P.intersecting (s.get .positive)).map (s.get .positive).ev ++ (P.intersecting (s.get .negative)).map (s.get .negative).ev ++
      (P.intersecting (s.get .vertical)).map (s.get .vertical).ev, P.isEnd es ⟨v.1, P.up.get P.d2⟩ = true ∧ P.lo.get P.d1 ≤ v.1 ∧
      v.1 ≤ P.up.get P.d1 ∧ v.1 ∈ (P.coords es).map (·.x) := by
    intro v hv
    have : ∃ o, ∃ p ∈ P.points (P.ofOrient o es), P.onTop p = true ∧ p.x = v.1 := by
      rcases List.mem_append.1 hv with hv | hv
      · rcases List.mem_append.1 hv with hv | hv
        · exact ⟨_, p7 v hv⟩
        · exact ⟨_, n7 v hv⟩
      · exact ⟨_, v7 v hv⟩
    obtain ⟨o, p, hp, hpt, hpx⟩ := this
    have hpe := ofOrient_points hp
    have hy' := hg.top p hpe hpt
    have hpq : p = ⟨v.1, P.up.get P.d2⟩ := by
      cases p
      simp only at hpx hy'
      rw [hpx, hy']
    have hw := hg.within p hpe
    rw [hpx] at hw
    refine ⟨by rw [← hpq]; exact isEnd_of_mem hp, hw.1, hw.2.1, ?_⟩
    exact List.mem_map.2 ⟨p, List.mem_cons_of_mem _ (List.mem_cons_of_mem _ hpe), hpx⟩
  have hsep : ∀ v ∈ (P.intersecting (s.get .positive)).map (s.get .positive).ev ++ (P.intersecting (s.get .negative)).map (s.get .negative).ev ++
      (P.intersecting (s.get .vertical)).map (s.get .vertical).ev, ∀ w ∈ (P.intersecting (s.get .positive)).map (s.get .positive).ev ++
      (P.intersecting (s.get .negative)).map (s.get .negative).ev ++ (P.intersecting (s.get .vertical)).map (s.get .vertical).ev,
      v.1 = w.1 ∨ P.tol ≤ |v.1 - w.1| := by
    intro v hv w hw
    rcases hx v.1 (hall v hv).2.2.2 w.1 (hall w hw).2.2.2 with h0 | h0
    · exact Or.inl h0
    · exact Or.inr (by linarith)
  have hml := missing_eq h (p := P.topLeft) List.mem_cons_self
  have hmr := missing_eq h (p := P.topRight) (List.mem_cons_of_mem _ List.mem_cons_self)
  obtain ⟨mid, hm1, hm2, hm3⟩ := mergeLoop_single hP s (s.get .positive).ev (s.get .negative).ev (s.get .vertical).ev
    ((P.intersecting s.pos).length + (P.intersecting s.neg).length + (P.intersecting s.ver).length) (P.intersecting s.pos)
    (P.intersecting s.neg) (P.intersecting s.ver) (if !P.isEnd es P.topLeft then [(P.lo.get P.d1, true)] else []) p4 n4 v4 ap an av p2 n2 v2 hsep le_rfl
  have hmall : ∀ v ∈ mid, P.isEnd es ⟨v.1, P.up.get P.d2⟩ = true ∧ P.lo.get P.d1 ≤ v.1 ∧
      v.1 ≤ P.up.get P.d1 ∧ v.1 ∈ (P.coords es).map (·.x) := by
    intro v hv
    apply hall
    rcases single_mem (hm2.mem_iff.1 hv) with h' | h' | h'
    · exact List.mem_append_left _ (List.mem_append_left _ h')
    · exact List.mem_append_left _ (List.mem_append_right _ h')
    · exact List.mem_append_right _ h'
  have hlox : P.lo.get P.d1 ∈ (P.coords es).map (·.x) := List.mem_map.2 ⟨P.topLeft, List.mem_cons_self, rfl⟩
  have hupx : P.up.get P.d1 ∈ (P.coords es).map (·.x) := List.mem_map.2 ⟨P.topRight, List.mem_cons_of_mem _ List.mem_cons_self, rfl⟩
  have hluf : 2 * P.tol < |P.lo.get P.d1 - P.up.get P.d1| := by
    rcases hx _ hlox _ hupx with h0 | h0
    · exact absurd h0 hlu.ne
    · exact h0
  have hleft : P.isEnd es P.topLeft = false → ∀ v ∈ mid, P.lo.get P.d1 < v.1 := by
    intro hf v hv
    have hv' := hmall v hv
    refine lt_of_le_of_ne hv'.2.1 ?_
    intro h0
    rw [← h0] at hv'
    have : P.isEnd es P.topLeft = true := hv'.1
    rw [hf] at this
    exact absurd this (by simp)
  have hright : P.isEnd es P.topRight = false → ∀ v ∈ mid, v.1 < P.up.get P.d1 := by
    intro hf v hv
    have hv' := hmall v hv
    refine lt_of_le_of_ne hv'.2.2.1 ?_
    intro h0
    rw [h0] at hv'
    have : P.isEnd es P.topRight = true := hv'.1
    rw [hf] at this
    exact absurd this (by simp)
  have hfar : P.isEnd es P.topRight = false → ∀ v ∈ mid, |v.1 - P.up.get P.d1| > P.tol := by
    intro hf v hv
    rcases hx v.1 (hmall v hv).2.2.2 _ hupx with h0 | h0
    · exact absurd h0 (hright hf v hv).ne
    · show P.tol < _; linarith
  have hperm : mid.Perm (single (P.crossings .positive es) (P.crossings .negative es) (P.crossings .vertical es)) :=
    hm2.trans (single_perm p1 n1 v1)
  refine ⟨mid, (if P.isEnd es P.topLeft then [] else [(P.lo.get P.d1, true)]) ++ mid ++
    (if P.isEnd es P.topRight || (P.isEnd es P.topLeft && mid.isEmpty) then [] else [(P.up.get P.d1, false)]), ⟨hperm, ?_, rfl⟩, ?_, ?_⟩
  · cases hL : P.isEnd es P.topLeft <;> cases hR : P.isEnd es P.topRight
    · simp only [Bool.false_and, Bool.or_false, Bool.false_eq_true, if_false]
      rw [List.pairwise_append, List.singleton_append, List.pairwise_cons]
      refine ⟨⟨hleft hL, hm3⟩, List.pairwise_singleton _ _, ?_⟩
      intro a ha b hb
      rw [List.mem_singleton.1 hb]
      rcases List.mem_cons.1 ha with rfl | ha
      · exact hlu
      · exact hright hR a ha
    · simp only [Bool.true_or, if_true, Bool.false_eq_true, if_false, List.append_nil, List.singleton_append]
      rw [List.pairwise_cons]
      exact ⟨hleft hL, hm3⟩
    · simp only [Bool.true_and, Bool.false_or, if_true, List.nil_append]
      rw [List.pairwise_append]
      refine ⟨hm3, ?_, ?_⟩
      · split
        · exact List.Pairwise.nil
        · exact List.pairwise_singleton _ _
      · intro a ha b hb
        split at hb
        · exact absurd hb List.not_mem_nil
        · rw [List.mem_singleton.1 hb]; exact hright hR a ha
    · simp only [Bool.true_or, if_true, List.nil_append, List.append_nil]
      exact hm3
  · intro v hv
    rcases List.mem_append.1 hv with hv | hv
    · rcases List.mem_append.1 hv with hv | hv
      · split at hv
        · exact absurd hv List.not_mem_nil
        · rw [List.mem_singleton.1 hv]; exact List.mem_cons_self
      · exact isEnd_coords (hmall v hv).1
    · split at hv
      · exact absurd hv List.not_mem_nil
      · rw [List.mem_singleton.1 hv]; exact List.mem_cons_of_mem _ List.mem_cons_self
  · unfold Params.topVertices
    have hr : ∀ o, (s.get o).inRange = true := fun o => (inRange_iff _).2 (h o).wf.edges
    have r1 : s.pos.inRange = true := hr .positive
    have r2 : s.neg.inRange = true := hr .negative
    have r3 : s.ver.inRange = true := hr .vertical
    rw [r1, r2, r3]
    simp only [State.get] at ep en ev
    rw [show (⟨P.lo.get P.d1, P.up.get P.d2⟩ : P2 K) = P.topLeft from rfl, show (⟨P.up.get P.d1, P.up.get P.d2⟩ : P2 K) = P.topRight from rfl]
    simp only [Bool.and_self, Bool.not_true, Bool.false_eq_true, if_false, ep, en, ev, hml, hmr, hm1]
    cases hL : P.isEnd es P.topLeft
    · simp only [Bool.not_false, if_true, Bool.false_and, Bool.or_false, Bool.false_eq_true, if_false]
      cases hlast : ([(P.lo.get P.d1, true)] ++ mid).getLast? with
      | none => simp at hlast
      | some v =>
        simp only
        have hv := List.mem_of_getLast? hlast
        cases hR : P.isEnd es P.topRight
        · have hd : |v.1 - P.up.get P.d1| > P.tol := by
            rcases List.mem_append.1 hv with hv | hv
            · rw [List.mem_singleton.1 hv]; show P.tol < _; dsimp only; linarith
            · exact hfar hR v hv
          simp [hd]
        · simp
    · simp only [Bool.not_true, Bool.false_eq_true, if_false, Bool.true_and, if_true, List.nil_append]
      cases hlast : mid.getLast? with
      | none =>
        have : mid = [] := List.getLast?_eq_none_iff.1 hlast
        simp [this]
      | some v =>
        simp only
        have hv := List.mem_of_getLast? hlast
        have hne : mid.isEmpty = false := by
          cases mid with
          | nil => simp at hv
          | cons => rfl
        cases hR : P.isEnd es P.topRight
        · simp [hfar hR v hv, hne]
        · simp

/-! ## Closing edges -/

theorem apart_length {tol : K} (ht : 0 < tol) {S : List (P2 K)} {c : Cont K} (h : c.Apart tol S) : c.verts.length ≤ S.length := by
  have hn : c.verts.Nodup := by
    refine h.apart.imp ?_
    intro a b hpq h0
    rw [h0] at hpq
    exact hpq (near.refl ht b)
  exact (List.subperm_of_subset hn h.points).length_le

theorem insertTops_room {P : Params K} (hP : P.Sound) {S : List (P2 K)} (hS : Clustered P.tol S) : ∀ (vs : List (K × Bool)) (c : Cont K),
    c.Apart P.tol S → c.stale = false → S.length + 2 ≤ c.vcap → (∀ v ∈ vs, (⟨v.1, P.up.get P.d2⟩ : P2 K) ∈ S) →
    ∃ c', P.insertTops vs c = .ok c' := by
  have htol := hP.tol_pos
  intro vs
  induction vs with
  | nil => intro c _ _ _ _; exact ⟨c, by simp only [Params.insertTops]⟩
  | cons a rest ih =>
    intro c hap hs hcap hv
    match rest with
    | [] => exact ⟨c, by simp only [Params.insertTops]⟩
    | b :: rest =>
      simp only [Params.insertTops]
      split
      · have hlen := apart_length htol hap
        obtain ⟨c1, h1, h2⟩ := insertTop_ok hP hap.wf hs a b (by omega)
        have ha1 : c1.Apart P.tol S := apart_insertEdge htol hS hP.bal hap (hv a List.mem_cons_self)
          (hv b (List.mem_cons_of_mem _ List.mem_cons_self)) h1
        obtain ⟨c', hc'⟩ := ih c1 ha1 h2.fresh (by rw [h2.vcap]; exact hcap) (fun v h => hv v (List.mem_cons_of_mem _ h))
        exact ⟨c', by rw [h1]; exact hc'⟩
      · exact ih c hap hs hcap (fun v h => hv v (List.mem_cons_of_mem _ h))

theorem points_length (P : Params K) (es : List (Given K)) : (P.points es).length = 2 * es.length := by
  unfold Params.points
  induction es with
  | nil => rfl
  | cons e es ih => rw [List.flatMap_cons, List.length_append, ih]; simp; omega

/-- The test point of a face whose upper side no edge meets. -/
theorem testPoint_mid {P : Params K} {es : List (Given K)} {s : State K} (h : ∀ o, P.Stored o es (s.get o)) (hl : -P.maxd ≤ P.lo.get P.d2) :
    ∃ y, P.testPoint s (P.lo.get P.d1) (P.up.get P.d1) = P.lift ⟨(P.lo.get P.d1 + P.up.get P.d1) / 2, (P.up.get P.d2 + y) / 2⟩ ∧
      P.Highest es y := by
  refine ⟨max (max (P.maxY s.neg.verts) (P.maxY s.pos.verts)) (P.lo.get P.d2), ?_, ?_⟩
  · unfold Params.testPoint
    dsimp only
    congr 2 <;> ring
  · obtain ⟨n1, n2, n3⟩ := maxY_bounds P s.neg.verts
    obtain ⟨p1, p2, p3⟩ := maxY_bounds P s.pos.verts
    refine ⟨le_max_right _ _, ?_, ?_⟩
    · intro p hp
      rcases hp with hp | hp
      · exact le_trans (p2 p (((h .positive).verts p).2 hp)) (le_trans (le_max_right _ _) (le_max_left _ _))
      · exact le_trans (n2 p (((h .negative).verts p).2 hp)) (le_trans (le_max_left _ _) (le_max_left _ _))
    · rcases max_choice (max (P.maxY s.neg.verts) (P.maxY s.pos.verts)) (P.lo.get P.d2) with h1 | h1
      · rw [h1]
        rcases max_choice (P.maxY s.neg.verts) (P.maxY s.pos.verts) with h2 | h2
        · rw [h2]
          rcases n3 with h3 | ⟨p, hp, h3⟩
          · left
            rw [h2, h3] at h1
            exact le_antisymm (by rw [h3]; exact hl) (max_eq_left_iff.1 h1 |>.trans (by rw [h3]))
          · exact Or.inr ⟨p, Or.inr (((h .negative).verts p).1 hp), h3⟩
        · rw [h2]
          rcases p3 with h3 | ⟨p, hp, h3⟩
          · left
            rw [h2, h3] at h1
            exact le_antisymm (by rw [h3]; exact hl) (max_eq_left_iff.1 h1 |>.trans (by rw [h3]))
          · exact Or.inr ⟨p, Or.inl (((h .positive).verts p).1 hp), h3⟩
      · left; exact h1

theorem insertTops_verts {P : Params K} : ∀ (vs : List (K × Bool)) (c c' : Cont K), P.insertTops vs c = .ok c' →
    ∀ q ∈ c'.verts, q ∈ c.verts ∨ ∃ e ∈ P.covered vs, q = e.1 ∨ q = e.2
  | [], c, c', h, q, hq => by
    simp only [Params.insertTops] at h
    cases h
    exact Or.inl hq
  | [a], c, c', h, q, hq => by
    simp only [Params.insertTops] at h
    cases h
    exact Or.inl hq
  | a :: b :: rest, c, c', h, q, hq => by
    simp only [Params.insertTops] at h
    simp only [Params.covered]
    cases hab : (a.2 && !b.2)
    · rw [hab] at h
      simp only [Bool.false_eq_true, if_false] at h ⊢
      rw [List.nil_append]
      exact insertTops_verts (b :: rest) c c' h q hq
    · rw [hab] at h
      simp only [if_true] at h ⊢
      split at h
      · exact absurd h (by simp)
      rename_i d hd
      rcases insertTops_verts (b :: rest) d c' h q hq with k | ⟨e, he, k⟩
      · rcases insertEdge_new hd q k with k | k | k
        · exact Or.inl k
        · exact Or.inr ⟨_, List.mem_append_left _ (List.mem_singleton.2 rfl), Or.inl k⟩
        · exact Or.inr ⟨_, List.mem_append_left _ (List.mem_singleton.2 rfl), Or.inr k⟩
      · exact Or.inr ⟨e, List.mem_append_right _ he, k⟩

/-- The edges on the upper side. -/
theorem closeTop_spec {P : Params K} (hP : P.Sound) (hsort : P.SortsTop) (hmax : P.up.get P.d1 - P.lo.get P.d1 + P.tol ≤ P.maxd)
    (hlu : P.lo.get P.d1 < P.up.get P.d1) (hl : -P.maxd ≤ P.lo.get P.d2) {es : List (Given K)} (hg : P.General es) {s t : State K}
    (hc : P.collect es = .ok s) (ht : P.closeTop s = .ok t) :
    ∃ mid vs tops, P.Places es mid vs ∧ P.TopEdges es mid vs tops ∧ t.neg = s.neg ∧ t.ver = s.ver ∧ t.pos.WF ∧
      t.pos.edges.map t.pos.ends = ((P.ofOrient .positive es).map fun e => P.ends e.1 e.2.1) ++ tops ∧
      (∀ e ∈ t.pos.edges, e.split = []) ∧ ∀ q ∈ t.pos.verts, q ∈ s.pos.verts ∨ ∃ e ∈ tops, q = e.1 ∨ q = e.2 := by
  have htol := hP.tol_pos
  have hst := collect_stored hP hg hc
  obtain ⟨hx, hy⟩ := separated_lists hg.separated
  obtain ⟨mid, vs, hpl, hvs, htop⟩ := topVertices_spec hP hsort hmax hlu hg hst
  have sp := hst .positive
  have hgrid : ∀ q ∈ s.pos.verts, Grid ((P.coords es).map (·.x)) ((P.coords es).map (·.y)) q := by
    intro q hq
    have := List.mem_cons_of_mem P.topLeft (List.mem_cons_of_mem P.topRight (ofOrient_points ((sp.verts q).1 hq)))
    exact ⟨List.mem_map.2 ⟨q, this, rfl⟩, List.mem_map.2 ⟨q, this, rfl⟩⟩
  have hty : P.up.get P.d2 ∈ (P.coords es).map (·.y) := List.mem_map.2 ⟨P.topLeft, List.mem_cons_self, rfl⟩
  have hvx : ∀ v ∈ vs, v.1 ∈ (P.coords es).map (·.x) := fun v hv => List.mem_map.2 ⟨_, hvs v hv, rfl⟩
  have hends : s.pos.edges.map s.pos.ends = (P.ofOrient .positive es).map fun e => P.ends e.1 e.2.1 := by
    have := congrArg (List.map Prod.fst) sp.edges
    rw [List.map_map, List.map_map] at this
    exact this
  unfold Params.closeTop at ht
  rw [htop] at ht
  dsimp only at ht
  split at ht
  · exact absurd ht (by simp)
  rename_i c hcl
  cases ht
  unfold Params.insertClosing at hcl
  have hcount : (!P.isEnd es P.topLeft && !(P.isEnd es P.topRight || (P.isEnd es P.topLeft && mid.isEmpty)) && decide (vs.length = 2)) = true ↔
      P.isEnd es P.topLeft = false ∧ P.isEnd es P.topRight = false ∧ mid = [] := by
    rw [hpl.2.2]
    cases hL : P.isEnd es P.topLeft <;> cases hR : P.isEnd es P.topRight <;> simp
  by_cases hfree : P.isEnd es P.topLeft = false ∧ P.isEnd es P.topRight = false ∧ mid = []
  · rw [if_pos (hcount.2 hfree)] at hcl
    obtain ⟨hL, hR, hm⟩ := id hfree
    have hvs' : vs = [(P.lo.get P.d1, true), (P.up.get P.d1, false)] := by
      rw [hpl.2.2, hL, hR, hm]; rfl
    rw [hvs'] at hcl
    dsimp only at hcl
    obtain ⟨y, hy1, hy2⟩ := testPoint_mid hst hl
    have hcov : P.covered vs = [(P.topLeft, P.topRight)] := by
      rw [hvs']; simp [Params.covered, Params.topLeft, Params.topRight]
    split at hcl
    · rename_i hin
      obtain ⟨e1, e2, e3, e4, e5⟩ := insertTop_exact hP hx hy hty sp.wf hgrid
        (List.mem_map.2 ⟨P.topLeft, List.mem_cons_self, rfl⟩)
        (List.mem_map.2 ⟨P.topRight, List.mem_cons_of_mem _ List.mem_cons_self, rfl⟩) hlu hcl
      refine ⟨mid, vs, P.covered vs, hpl, ?_, rfl, rfl, e1, ?_, ?_, ?_⟩
      · refine ⟨fun h => absurd hfree h, fun _ => ⟨y, hy2, ?_⟩⟩
        rw [← hy1, hin]; rfl
      · rw [hcov]
        rw [show s.get .positive = s.pos from rfl] at e3
        rw [e3, hends]; rfl
      · intro e he
        have : e.split ∈ c.edges.map (·.split) := List.mem_map_of_mem he
        rw [e5] at this
        rcases List.mem_append.1 this with h' | h'
        · obtain ⟨e', he', h''⟩ := List.mem_map.1 h'
          rw [← h'']; exact sp.plain e' he'
        · exact List.mem_singleton.1 h'
      · intro q hq
        rw [hcov]
        rcases insertEdge_new hcl q hq with k | k | k
        · exact Or.inl k
        · exact Or.inr ⟨_, List.mem_singleton.2 rfl, Or.inl k⟩
        · exact Or.inr ⟨_, List.mem_singleton.2 rfl, Or.inr k⟩
    · rename_i hin
      cases hcl
      refine ⟨mid, vs, [], hpl, ?_, rfl, rfl, sp.wf, ?_, sp.plain, fun q hq => Or.inl hq⟩
      · refine ⟨fun h => absurd hfree h, fun _ => ⟨y, hy2, ?_⟩⟩
        rw [← hy1]
        simp [hin]
      · rw [List.append_nil]; exact hends
  · rw [if_neg (fun h => hfree (hcount.1 h))] at hcl
    obtain ⟨e1, e2, e3, e4⟩ := insertTops_exact hP hx hy hty vs s.pos c sp.wf hgrid hvx hpl.2.1 hcl
    refine ⟨mid, vs, P.covered vs, hpl, ⟨fun _ => rfl, fun h => absurd h hfree⟩, rfl, rfl, e1, ?_, e4 sp.plain, insertTops_verts vs s.pos c hcl⟩
    rw [e3, hends]

/-- Closing does not fail. -/
theorem closeTop_general {P : Params K} (hP : P.Sound) (hsort : P.SortsTop) (hmax : P.up.get P.d1 - P.lo.get P.d1 + P.tol ≤ P.maxd)
    (hlu : P.lo.get P.d1 < P.up.get P.d1) {es : List (Given K)} (hg : P.General es) {s : State K} (hc : P.collect es = .ok s)
    (hpos : ∀ e ∈ es, P.orient e.1 e.2.1 e.2.2 = some .positive) : ∃ t, P.closeTop s = .ok t := by
  have htol := hP.tol_pos
  have hst := collect_stored hP hg hc
  obtain ⟨s', hs', hgood⟩ := collect_ok hP es
  rw [hc] at hs'
  cases hs'
  obtain ⟨mid, vs, hpl, hvs, htop⟩ := topVertices_spec hP hsort hmax hlu hg hst
  have hcl := separated_clustered htol hg.separated
  have sp := hst .positive
  have hlen : (P.coords es).length + 2 ≤ s.pos.vcap := by
    have hv : s.pos.vcap = max (3 * es.length) 10 := (hgood .positive).vcap
    rw [hv]
    unfold Params.coords
    simp only [List.length_cons, points_length]
    omega
  have hcase : ∃ c, P.insertClosing s vs (!P.isEnd es P.topLeft) (!(P.isEnd es P.topRight || (P.isEnd es P.topLeft && mid.isEmpty))) = .ok c := by
    unfold Params.insertClosing
    split
    · rename_i h2
      match vs, hvs, h2 with
      | a :: b :: rest, hvs, h2 =>
        dsimp only
        split
        · have hl := apart_length htol sp.apart
          obtain ⟨c1, h1, -⟩ := insertTop_ok hP sp.wf sp.fresh a b (by
            show s.pos.verts.length + 2 ≤ s.pos.vcap
            have : s.pos.verts.length ≤ (P.coords es).length := hl
            omega)
          exact ⟨c1, h1⟩
        · exact ⟨_, rfl⟩
      | [], _, h2 => simp at h2
      | [a], _, h2 => simp at h2
    · exact insertTops_room hP hcl vs s.pos sp.apart sp.fresh hlen hvs
  obtain ⟨c, hcc⟩ := hcase
  unfold Params.closeTop
  rw [htop]
  dsimp only
  rw [hcc]
  exact ⟨_, rfl⟩

omit [IsStrictOrderedRing K] in
theorem covered_rising {P : Params K} : ∀ {vs : List (K × Bool)}, vs.Pairwise (fun a b => a.1 < b.1) →
    ∀ e ∈ P.covered vs, e.1.x ≤ e.2.x ∧ e.1.y = P.up.get P.d2 ∧ e.2.y = P.up.get P.d2
  | [], _ => by simp [Params.covered]
  | [a], _ => by simp [Params.covered]
  | a :: b :: rest, h => by
    intro e he
    simp only [Params.covered] at he
    rcases List.mem_append.1 he with he | he
    · split at he
      · rw [List.mem_singleton.1 he]
        exact ⟨((List.pairwise_cons.1 h).1 b List.mem_cons_self).le, rfl, rfl⟩
      · exact absurd he List.not_mem_nil
    · exact covered_rising (List.pairwise_cons.1 h).2 e he

end QuESo.Plane
