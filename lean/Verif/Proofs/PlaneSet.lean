import Verif.Proofs.PlaneDomain

/-!
For clustered points the comparison with tolerance is a strict weak order and the sets work as sets.
-/
namespace QuESo.Plane
open QuESo.AABBTree (Fault)
variable {K : Type} [Field K] [LinearOrder K] [IsStrictOrderedRing K]

theorem clustered_near {tol : K} (ht : 0 < tol) {S : List (P2 K)} (hS : Clustered tol S) {a b c : P2 K} (ha : a ∈ S) (hb : b ∈ S)
    (hc : c ∈ S) (h1 : near tol a b) (h2 : near tol b c) : near tol a c := by
  have x1 := (hS a ha b hb).1.resolve_right (not_lt.2 h1.1.le)
  have x2 := (hS b hb c hc).1.resolve_right (not_lt.2 h2.1.le)
  have y1 := (hS a ha b hb).2.resolve_right (not_lt.2 h1.2)
  have y2 := (hS b hb c hc).2.resolve_right (not_lt.2 h2.2)
  rw [abs_lt] at x1 x2 y1 y2
  constructor
  · rw [abs_lt]; constructor <;> linarith [x1.1, x1.2, x2.1, x2.2]
  · rw [abs_le]; constructor <;> linarith [y1.1, y1.2, y2.1, y2.2]

theorem clustered_less {tol : K} (ht : 0 < tol) {S : List (P2 K)} (hS : Clustered tol S) {a b c : P2 K} (ha : a ∈ S) (hb : b ∈ S)
    (hc : c ∈ S) (h1 : less tol a b = true) (h2 : less tol b c = true) : less tol a c = true := by
  have cab := (hS a ha b hb).1
  have cbc := (hS b hb c hc).1
  have cac := (hS a ha c hc).1
  unfold less at h1 h2 ⊢
  by_cases x1 : |a.x - b.x| < tol
  · have y1 := cab.resolve_right (not_lt.2 x1.le)
    rw [abs_lt] at y1
    rw [if_pos x1, decide_eq_true_eq] at h1
    by_cases x2 : |b.x - c.x| < tol
    · have y2 := cbc.resolve_right (not_lt.2 x2.le)
      rw [abs_lt] at y2
      rw [if_pos x2, decide_eq_true_eq] at h2
      have : |a.x - c.x| < tol := by rw [abs_lt]; constructor <;> linarith [y1.1, y1.2, y2.1, y2.2]
      rw [if_pos this, decide_eq_true_eq]
      linarith
    · rw [if_neg x2, decide_eq_true_eq] at h2
      have hlt : a.x < c.x := by linarith [y1.1, y1.2]
      have : ¬ |a.x - c.x| < tol := by
        intro h
        have y3 := cac.resolve_right (not_lt.2 h.le)
        rw [abs_lt] at y3
        apply x2
        rw [abs_lt]; constructor <;> linarith [y1.1, y1.2, y3.1, y3.2]
      rw [if_neg this, decide_eq_true_eq]
      rw [not_lt, abs_of_neg (by linarith)] at this
      linarith
  · rw [if_neg x1, decide_eq_true_eq] at h1
    by_cases x2 : |b.x - c.x| < tol
    · have y2 := cbc.resolve_right (not_lt.2 x2.le)
      rw [abs_lt] at y2
      have hlt : a.x < c.x := by linarith [y2.1, y2.2]
      have : ¬ |a.x - c.x| < tol := by
        intro h
        have y3 := cac.resolve_right (not_lt.2 h.le)
        rw [abs_lt] at y3
        apply x1
        rw [abs_lt]; constructor <;> linarith [y2.1, y2.2, y3.1, y3.2]
      rw [if_neg this, decide_eq_true_eq]
      rw [not_lt, abs_of_neg (by linarith)] at this
      linarith
    · rw [if_neg x2, decide_eq_true_eq] at h2
      have : ¬ |a.x - c.x| < tol := by
        rw [not_lt, abs_of_neg (by linarith)]; linarith
      rw [if_neg this, decide_eq_true_eq]
      linarith

/-- The points of a set are in order. -/
def Tree.Sorted (tol : K) (t : Tree K) : Prop := t.toList.Pairwise fun p q => less tol p.2 q.2 = true

theorem lowerBound_eq {tol : K} (ht : 0 < tol) {S : List (P2 K)} (hS : Clustered tol S) {key : P2 K} (hk : key ∈ S) (t : Tree K) :
    ∀ y, (∀ q ∈ t.toList, q.2 ∈ S) → t.Sorted tol →
      t.lowerBound tol key y = (t.toList.find? fun q => !less tol q.2 key).or y := by
  induction t with
  | leaf => intro y _ _; simp [Tree.lowerBound, Tree.toList]
  | node l i p r ihl ihr =>
    intro y hm hs
    unfold Tree.Sorted at hs
    simp only [Tree.toList] at hm hs
    rw [List.pairwise_append, List.pairwise_cons] at hs
    have hml : ∀ q ∈ l.toList, q.2 ∈ S := fun q hq => hm q (by simp [hq])
    have hmr : ∀ q ∈ r.toList, q.2 ∈ S := fun q hq => hm q (by simp [hq])
    have hmp : p ∈ S := hm (i, p) (by simp)
    simp only [Tree.lowerBound, Tree.toList, List.find?_append, List.find?_cons]
    by_cases hp : less tol p key = true
    · rw [if_pos hp, ihr y hmr hs.2.1.2]
      have hl : (l.toList.find? fun q => !less tol q.2 key) = none := by
        rw [List.find?_eq_none]
        intro q hq
        have h1 := hs.2.2 q hq (i, p) (by simp)
        simp [clustered_less ht hS (hml q hq) hmp hk h1 hp]
      simp [hl, hp]
    · rw [if_neg hp, ihl _ hml hs.1]
      simp only [Bool.not_eq_true] at hp
      simp [hp]

theorem find_none {tol : K} (ht : 0 < tol) {S : List (P2 K)} (hS : Clustered tol S) {key : P2 K} (hk : key ∈ S) {t : Tree K}
    (hm : ∀ q ∈ t.toList, q.2 ∈ S) (hs : t.Sorted tol) (h : t.find tol key = none) : ∀ q ∈ t.toList, ¬ near tol q.2 key := by
  unfold Tree.find at h
  rw [lowerBound_eq ht hS hk t none hm hs, Option.or_none] at h
  intro q hq hn
  cases hf : t.toList.find? fun q => !less tol q.2 key with
  | none =>
    rw [List.find?_eq_none] at hf
    have := hf q hq
    rw [not_less_of_near hn] at this
    simp at this
  | some r =>
    rw [hf] at h
    dsimp only at h
    split at h
    · rename_i hlt
      obtain ⟨_, as, bs, heq, has⟩ := List.find?_eq_some_iff_append.1 hf
      rw [heq, List.mem_append, List.mem_cons] at hq
      have hr : r.2 ∈ S := hm r (by rw [heq]; simp)
      rcases hq with hq | rfl | hq
      · have := has q hq
        rw [not_less_of_near hn] at this
        simp at this
      · rw [not_less_of_near hn.symm] at hlt
        simp at hlt
      · unfold Tree.Sorted at hs
        rw [heq, List.pairwise_append, List.pairwise_cons] at hs
        have h1 := hs.2.1.1 q hq
        have h2 := clustered_less ht hS hk hr (hm q (by rw [heq]; simp [hq])) hlt h1
        rw [not_less_of_near hn.symm] at h2
        simp at h2
    · exact absurd h (by simp)

theorem insertAt_sorted {tol : K} (ht : 0 < tol) {S : List (P2 K)} (hS : Clustered tol S) {i : Nat} {p : P2 K} (hp : p ∈ S)
    (t : Tree K) : ∀ pred : Option (P2 K), (∀ q ∈ t.toList, q.2 ∈ S) → t.Sorted tol → (∀ q ∈ t.toList, ¬ near tol q.2 p) →
      (∀ q, pred = some q → less tol q p = true) →
      ∃ t' A B, t.insertAt tol i p pred = some t' ∧ t.toList = A ++ B ∧ t'.toList = A ++ (i, p) :: B ∧
        (∀ q ∈ A, less tol q.2 p = true) ∧ (∀ q ∈ B, less tol p q.2 = true) := by
  induction t with
  | leaf =>
    intro pred _ _ _ hpred
    cases pred with
    | none => exact ⟨_, [], [], rfl, rfl, rfl, by simp, by simp⟩
    | some q =>
      refine ⟨.node .leaf i p .leaf, [], [], ?_, rfl, rfl, by simp, by simp⟩
      simp [Tree.insertAt, hpred q rfl]
  | node l j q r ihl ihr =>
    intro pred hm hs hn hpred
    unfold Tree.Sorted at hs
    simp only [Tree.toList] at hm hs hn
    rw [List.pairwise_append, List.pairwise_cons] at hs
    have hml : ∀ x ∈ l.toList, x.2 ∈ S := fun x hx => hm x (by simp [hx])
    have hmr : ∀ x ∈ r.toList, x.2 ∈ S := fun x hx => hm x (by simp [hx])
    have hmq : q ∈ S := hm (j, q) (by simp)
    simp only [Tree.insertAt]
    by_cases hq : less tol p q = true
    · rw [if_pos hq]
      obtain ⟨t', A, B, h1, h2, h3, h4, h5⟩ := ihl pred hml hs.1 (fun x hx => hn x (by simp [hx])) hpred
      refine ⟨.node t' j q r, A, B ++ (j, q) :: r.toList, by rw [h1]; rfl, by simp [Tree.toList, h2], by simp [Tree.toList, h3], h4, ?_⟩
      intro x hx
      rw [List.mem_append, List.mem_cons] at hx
      rcases hx with hx | rfl | hx
      · exact h5 x hx
      · exact hq
      · exact clustered_less ht hS hp hmq (hmr x hx) hq (hs.2.1.1 x hx)
    · rw [if_neg hq]
      simp only [Bool.not_eq_true] at hq
      have hqp : less tol q p = true := by
        by_contra h
        simp only [Bool.not_eq_true] at h
        exact hn (j, q) (by simp) (near_of_not_less h hq)
      obtain ⟨t', A, B, h1, h2, h3, h4, h5⟩ := ihr (some q) hmr hs.2.1.2 (fun x hx => hn x (by simp [hx]))
        (by intro x hx; cases hx; exact hqp)
      refine ⟨.node l j q t', l.toList ++ (j, q) :: A, B, by rw [h1]; rfl, by simp [Tree.toList, h2], by simp [Tree.toList, h3], ?_, h5⟩
      intro x hx
      rw [List.mem_append, List.mem_cons] at hx
      rcases hx with hx | rfl | hx
      · exact clustered_less ht hS (hml x hx) hmq hp (hs.2.2 x hx (j, q) (by simp)) hqp
      · exact hqp
      · exact h4 x hx

/-- The vertices of a container are pairwise different and the set holds all of them. -/
structure Cont.Apart (tol : K) (S : List (P2 K)) (c : Cont K) : Prop where
  wf : c.WF
  sorted : c.set.Sorted tol
  points : ∀ p ∈ c.verts, p ∈ S
  all : ∀ p ∈ c.verts, ∃ i, (i, p) ∈ c.set.toList
  apart : c.verts.Pairwise fun p q => ¬ near tol p q

theorem apart_empty (tol : K) (S : List (P2 K)) (n : Nat) : (Cont.empty n : Cont K).Apart tol S :=
  ⟨WF_empty n, by simp [Cont.empty, Tree.Sorted, Tree.toList], by simp [Cont.empty], by simp [Cont.empty], by simp [Cont.empty]⟩

theorem apart_set {tol : K} {S : List (P2 K)} {c : Cont K} (h : c.Apart tol S) : ∀ q ∈ c.set.toList, q.2 ∈ S := by
  intro q hq
  exact h.points _ (List.mem_of_getElem? (h.wf.set q hq))

theorem apart_find {tol : K} (ht : 0 < tol) {S : List (P2 K)} (hS : Clustered tol S) {c : Cont K} (h : c.Apart tol S) {key : P2 K}
    (hk : key ∈ S) (hf : c.set.find tol key = none) : ∀ p ∈ c.verts, ¬ near tol p key := by
  intro p hp
  obtain ⟨i, hi⟩ := h.all p hp
  exact find_none ht hS hk (apart_set h) h.sorted hf (i, p) hi

theorem apart_insertVertex {tol : K} (ht : 0 < tol) {S : List (P2 K)} (hS : Clustered tol S) {bal : Tree K → Tree K}
    (hb : ∀ t, (bal t).toList = t.toList) {c c' : Cont K} (h : c.Apart tol S) {p : P2 K} (hp : p ∈ S) {idx : Nat}
    (hn : idx = c.verts.length → ∀ q ∈ c.verts, ¬ near tol q p) (hc : c.insertVertex tol bal p idx = .ok c') :
    c'.Apart tol S ∧ (idx ≠ c.verts.length → c' = c) ∧ (idx = c.verts.length → c'.verts = c.verts ++ [p]) ∧
      idx < c'.verts.length := by
  unfold Cont.insertVertex at hc
  split at hc
  · rename_i hi
    dsimp only at hc
    split at hc
    · exact absurd hc (by simp)
    cases hc
    refine ⟨?_, fun h' => absurd hi h', fun _ => pushVertex_verts c p, by dsimp only; rw [pushVertex_verts]; simp; omega⟩
    have hnot : ∀ q ∈ c.set.toList, ¬ near tol q.2 p := fun q hq => hn hi _ (List.mem_of_getElem? (h.wf.set q hq))
    obtain ⟨t', A, B, h1, h2, h3, h4, h5⟩ := insertAt_sorted ht hS (i := idx) hp c.set none (apart_set h) h.sorted hnot (by simp)
    have hset : ((c.pushVertex p).set.insert tol bal idx p).toList = A ++ (idx, p) :: B := by
      unfold Tree.insert
      rw [pushVertex_set, h1]
      dsimp only
      rw [hb, h3]
    refine ⟨⟨?_, ?_⟩, ?_, ?_, ?_, ?_⟩
    · intro q hq
      dsimp only at hq ⊢
      rw [hset, List.mem_append, List.mem_cons] at hq
      rw [pushVertex_verts]
      have hold : q ∈ c.set.toList → (c.verts ++ [p])[q.1]? = some q.2 := fun hq' =>
        prefix_getElem? (List.prefix_append _ _) (h.wf.set q hq')
      rcases hq with hq | rfl | hq
      · exact hold (by rw [h2]; simp [hq])
      · simp [hi]
      · exact hold (by rw [h2]; simp [hq])
    · intro e he
      dsimp only at he ⊢
      rw [pushVertex_edges] at he
      rw [pushVertex_verts]
      have := h.wf.edges e he
      simp; omega
    · unfold Tree.Sorted
      dsimp only
      rw [hset]
      have hs := h.sorted
      unfold Tree.Sorted at hs
      rw [h2, List.pairwise_append] at hs
      rw [List.pairwise_append, List.pairwise_cons]
      refine ⟨hs.1, ⟨fun q hq => h5 q hq, hs.2.1⟩, ?_⟩
      intro a ha b hb'
      rcases List.mem_cons.1 hb' with rfl | hb'
      · exact h4 a ha
      · exact hs.2.2 a ha b hb'
    · intro q hq
      dsimp only at hq
      rw [pushVertex_verts, List.mem_append, List.mem_singleton] at hq
      rcases hq with hq | rfl
      · exact h.points q hq
      · exact hp
    · intro q hq
      dsimp only at hq ⊢
      rw [pushVertex_verts, List.mem_append, List.mem_singleton] at hq
      rw [hset]
      rcases hq with hq | rfl
      · obtain ⟨i, hi'⟩ := h.all q hq
        rw [h2, List.mem_append] at hi'
        refine ⟨i, ?_⟩
        rcases hi' with hi' | hi'
        · simp [hi']
        · simp [hi']
      · exact ⟨idx, by simp⟩
    · dsimp only
      rw [pushVertex_verts, List.pairwise_append]
      refine ⟨h.apart, by simp, ?_⟩
      intro a ha b hb'
      simp only [List.mem_singleton] at hb'
      subst hb'
      exact hn hi a ha
  · rename_i hi
    split at hc
    · exact absurd hc (by simp)
    · cases hc
      exact ⟨h, fun _ => rfl, fun h' => absurd h' hi, by omega⟩

theorem apart_insertEdge {tol : K} (ht : 0 < tol) {S : List (P2 K)} (hS : Clustered tol S) {bal : Tree K → Tree K}
    (hb : ∀ t, (bal t).toList = t.toList) {c c' : Cont K} (h : c.Apart tol S) {v1 v2 n : P2 K} (h1 : v1 ∈ S) (h2 : v2 ∈ S)
    (hc : c.insertEdge tol bal v1 v2 n = .ok c') : c'.Apart tol S := by
  have hlt : ∀ (v : P2 K) i, c.set.find tol v = some i → i < c.verts.length := by
    intro v i hi
    obtain ⟨p, hp, _⟩ := find_spec hi
    exact (List.getElem?_eq_some_iff.1 (h.wf.set _ hp)).1
  unfold Cont.insertEdge Cont.uniqueIds Cont.find at hc
  by_cases hst : c.stale = true
  · rw [hst] at hc
    simp only [if_true] at hc
    by_cases hsame : (!less tol v1 v2 && !less tol v2 v1) = true
    · rw [if_pos hsame] at hc
      simp only [ne_eq, not_true_eq_false, if_false] at hc
      cases hc; exact h
    · rw [if_neg hsame] at hc
      exact absurd hc (by simp)
  simp only [Bool.not_eq_true] at hst
  rw [hst] at hc
  simp only [Bool.false_eq_true, if_false] at hc
  by_cases hsame : (!less tol v1 v2 && !less tol v2 v1) = true
  · rw [if_pos hsame] at hc
    simp only [ne_eq, not_true_eq_false, if_false] at hc
    cases hc; exact h
  rw [if_neg hsame] at hc
  have hfar : ¬ near tol v1 v2 := by
    intro hn
    apply hsame
    rw [not_less_of_near hn, not_less_of_near hn.symm]; rfl
  split at hc
  · exact absurd hc (by simp)
  rename_i i1 i2 hids
  split at hids
  · cases hids
    simp only [ne_eq, not_true_eq_false, if_false] at hc
    cases hc; exact h
  simp only [Except.ok.injEq, Prod.mk.injEq] at hids
  obtain ⟨e1, e2⟩ := hids
  split at hc
  swap
  · cases hc; exact h
  split at hc
  · exact absurd hc (by simp)
  rename_i ca hca
  split at hc
  · exact absurd hc (by simp)
  rename_i cb hcb
  cases hc
  obtain ⟨a1, a2, a3, a4⟩ := apart_insertVertex ht hS hb h h1 (by
    intro hi
    apply apart_find ht hS h h1
    cases hf : c.set.find tol v1 with
    | none => rfl
    | some i =>
      have := hlt v1 i hf
      rw [hf] at e1; simp at e1; omega) hca
  obtain ⟨b1, b2, b3, b4⟩ := apart_insertVertex ht hS hb a1 h2 (by
    intro hi
    cases hf2 : c.set.find tol v2 with
    | some i =>
      have := hlt v2 i hf2
      rw [hf2] at e2; simp at e2
      have hle : c.verts.length ≤ ca.verts.length := by
        by_cases h' : i1 = c.verts.length
        · rw [a3 h']; simp
        · rw [a2 h']
      omega
    | none =>
      have hfar2 := apart_find ht hS h h2 hf2
      by_cases h' : i1 = c.verts.length
      · rw [a3 h']
        intro q hq
        rw [List.mem_append, List.mem_singleton] at hq
        rcases hq with hq | rfl
        · exact hfar2 q hq
        · exact hfar
      · rw [a2 h']; exact hfar2) hcb
  have hle : ca.verts.length ≤ cb.verts.length := by
    by_cases h' : i2 = ca.verts.length
    · rw [b3 h']; simp
    · rw [b2 h']
  refine ⟨⟨b1.wf.set, ?_⟩, b1.sorted, b1.points, b1.all, b1.apart⟩
  intro e he
  simp only [Cont.pushEdge, List.mem_append, List.mem_singleton] at he ⊢
  rcases he with he | rfl
  · exact b1.wf.edges e he
  · refine ⟨?_, b4⟩
    show i1 < cb.verts.length
    omega

theorem ends_points {P : Params K} {es : List (Given K)} {e : Given K} (he : e ∈ es) :
    (P.ends e.1 e.2.1).1 ∈ P.points es ∧ (P.ends e.1 e.2.1).2 ∈ P.points es := by
  unfold Params.points Params.ends
  simp only [List.mem_flatMap]
  split <;> exact ⟨⟨e, he, by simp⟩, ⟨e, he, by simp⟩⟩

theorem collectLoop_apart {P : Params K} (hP : P.Sound) {S : List (P2 K)} (hS : Clustered P.tol S) : ∀ (rest : List (Given K)) (s s' : State K),
    (∀ e ∈ rest, (P.ends e.1 e.2.1).1 ∈ S ∧ (P.ends e.1 e.2.1).2 ∈ S) → (∀ o, (s.get o).Apart P.tol S) →
    P.collectLoop rest s = .ok s' → ∀ o, (s'.get o).Apart P.tol S := by
  intro rest
  induction rest with
  | nil => intro s s' _ h hc; simp only [Params.collectLoop] at hc; cases hc; exact h
  | cons e rest ih =>
    obtain ⟨a, b, n⟩ := e
    intro s s' hr h hc
    simp only [Params.collectLoop] at hc
    split at hc
    · exact absurd hc (by simp)
    rename_i s1 hs1
    apply ih s1 s' (fun e he => hr e (List.mem_cons_of_mem _ he)) _ hc
    unfold Params.insertEdge3 at hs1
    split at hs1
    · cases hs1; exact h
    rename_i o ho
    split at hs1
    · exact absurd hs1 (by simp)
    rename_i c hcc
    cases hs1
    have hin := hr (a, b, n) List.mem_cons_self
    intro o'
    by_cases hoo : o' = o
    · subst hoo
      rw [get_put_same]
      exact apart_insertEdge hP.tol_pos hS hP.bal (h o') hin.1 hin.2 hcc
    · rw [get_put_ne s hoo]; exact h o'

end QuESo.Plane
