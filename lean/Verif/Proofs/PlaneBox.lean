import Verif.Proofs.PlaneSplit
import Verif.Proofs.PlaneTriangles
import Verif.Proofs.PlaneSet

/-! # The cap of a face stays in the face -/
namespace QuESo.Plane
open QuESo.AABBTree (Fault)
open QuESo.Spec
variable {K : Type} [Field K] [LinearOrder K] [IsStrictOrderedRing K]

theorem insertVertex_new {tol : K} {bal : Tree K → Tree K} {c c' : Cont K} {p : P2 K} {idx : Nat}
    (h : c.insertVertex tol bal p idx = .ok c') : ∀ q ∈ c'.verts, q ∈ c.verts ∨ q = p := by
  unfold Cont.insertVertex at h
  split at h
  · dsimp only at h
    split at h
    · exact absurd h (by simp)
    · cases h
      intro q hq
      rw [pushVertex_verts] at hq
      simpa using hq
  · split at h
    · exact absurd h (by simp)
    · cases h
      exact fun q hq => Or.inl hq

theorem insertEdge_new {tol : K} {bal : Tree K → Tree K} {c c' : Cont K} {v1 v2 n : P2 K}
    (h : c.insertEdge tol bal v1 v2 n = .ok c') : ∀ q ∈ c'.verts, q ∈ c.verts ∨ q = v1 ∨ q = v2 := by
  unfold Cont.insertEdge at h
  split at h
  · exact absurd h (by simp)
  · split at h
    · split at h
      · exact absurd h (by simp)
      · rename_i ca hca
        split at h
        · exact absurd h (by simp)
        · rename_i cb hcb
          cases h
          intro q hq
          rcases insertVertex_new hcb q hq with h | h
          · rcases insertVertex_new hca q h with h | h
            · exact Or.inl h
            · exact Or.inr (Or.inl h)
          · exact Or.inr (Or.inr h)
    · cases h
      exact fun q hq => Or.inl hq

/-- All edges refer to vertices with a property. -/
def EndsIn (Q : P2 K → Prop) (c : Cont K) (es : List (Edge K)) : Prop := ∀ e ∈ es, Q (c.pt e.v1) ∧ Q (c.pt e.v2)

theorem endsIn_intersecting {P : Params K} (hP : P.Sound) {c : Cont K} (hr : c.inRange = true) {Q : P2 K → Prop} (h : ∀ q ∈ c.verts, Q q) :
    EndsIn Q c (P.intersecting c) := by
  intro f hf
  obtain ⟨e, he, h1, h2, -⟩ := intersecting_mem hP c hf
  have := (inRange_iff c).1 hr e he
  rw [h1, h2]
  exact ⟨h _ (pt_mem this.1), h _ (pt_mem this.2)⟩

omit [IsStrictOrderedRing K] in
theorem endsIn_tail {Q : P2 K → Prop} {c : Cont K} {es : List (Edge K)} (b : Bool) (h : EndsIn Q c es) : EndsIn Q c (if b then es.tail else es) := by
  cases b
  · exact h
  · exact fun e he => h e (List.mem_of_mem_tail he)

/-- The vertices the loop over the intersected edges finds have first coordinates of vertices. -/
theorem mergeLoop_new {P : Params K} (s : State K) {Q : P2 K → Prop} : ∀ (fuel : Nat) (pos neg ver : List (Edge K)) (out vs : List (K × Bool)),
    EndsIn Q s.pos pos → EndsIn Q s.neg neg → EndsIn Q s.ver ver → P.mergeLoop s fuel pos neg ver out = .ok vs →
    ∀ v ∈ vs, v ∈ out ∨ ∃ q, Q q ∧ v.1 = q.x := by
  intro fuel
  induction fuel with
  | zero =>
    intro pos neg ver out vs _ _ _ h
    unfold Params.mergeLoop at h
    split at h
    · cases h; exact fun v hv => Or.inl hv
    · exact absurd h (by simp)
  | succ fuel ih =>
    intro pos neg ver out vs hp hn hv h
    unfold Params.mergeLoop at h
    split at h
    · cases h; exact fun v hv => Or.inl hv
    dsimp only at h
    have one : ∀ (e : Edge K) (c : Cont K) (a : List (K × Bool)), (∀ v ∈ a, v.1 = (c.pt e.v1).x ∨ v.1 = (c.pt e.v2).x) →
        Q (c.pt e.v1) ∧ Q (c.pt e.v2) → ∀ v ∈ a, ∃ q, Q q ∧ v.1 = q.x := by
      intro e c a ha hq v hv
      rcases ha v hv with h | h
      · exact ⟨_, hq.1, h⟩
      · exact ⟨_, hq.2, h⟩
    have join : ∀ (a : List (K × Bool)), (∀ v ∈ a, ∃ q, Q q ∧ v.1 = q.x) → (∀ v ∈ vs, v ∈ out ++ a ∨ ∃ q, Q q ∧ v.1 = q.x) →
        ∀ v ∈ vs, v ∈ out ∨ ∃ q, Q q ∧ v.1 = q.x := by
      intro a ha hh v hv
      rcases hh v hv with h | h
      · rcases List.mem_append.1 h with h | h
        · exact Or.inl h
        · exact Or.inr (ha v h)
      · exact Or.inr h
    split at h
    · exact ih _ _ _ _ _ (endsIn_tail _ hp) (endsIn_tail _ hn) (endsIn_tail _ hv) h
    · split at h
      · split at h
        · exact absurd h (by simp)
        · rename_i e rest _ _ _
          refine join _ (one e s.pos _ ?_ (hp e (by simp))) (ih _ _ _ _ _ (fun f hf => hp f (by simp [hf])) hn hv h)
          unfold Params.addPositive
          split
          · split <;> simp
          · split
            · split <;> simp
            · simp
      · split at h
        · split at h
          · exact absurd h (by simp)
          · rename_i e rest _ _ _ _
            refine join _ (one e s.neg _ ?_ (hn e (by simp))) (ih _ _ _ _ _ hp (fun f hf => hn f (by simp [hf])) hv h)
            unfold Params.addNegative
            split
            · split <;> simp
            · split
              · split <;> simp
              · simp
        · split at h
          · split at h
            · exact absurd h (by simp)
            · rename_i e rest _ _ _ _ _
              refine join _ (one e s.ver _ ?_ (hv e (by simp))) (ih _ _ _ _ _ hp hn (fun f hf => hv f (by simp [hf])) h)
              unfold Params.addVertical
              split
              · split <;> simp
              · simp
          · exact ih _ _ _ _ _ hp hn hv h

theorem topVertices_new {P : Params K} (hP : P.Sound) {s : State K} {vs : List (K × Bool)} {left right : Bool} {Q : P2 K → Prop}
    (h1 : ∀ q ∈ s.pos.verts, Q q) (h2 : ∀ q ∈ s.neg.verts, Q q) (h3 : ∀ q ∈ s.ver.verts, Q q)
    (h : P.topVertices s = .ok (vs, left, right)) :
    ∀ v ∈ vs, v.1 = P.lo.get P.d1 ∨ v.1 = P.up.get P.d1 ∨ ∃ q, Q q ∧ v.1 = q.x := by
  unfold Params.topVertices at h
  split at h
  · exact absurd h (by simp)
  rename_i hr
  simp only [Bool.not_eq_true', Bool.not_eq_false, Bool.and_eq_true] at hr
  dsimp only at h
  split at h
  · exact absurd h (by simp)
  · exact absurd h (by simp)
  rename_i l r hl hr'
  split at h
  · exact absurd h (by simp)
  rename_i ws hws
  have key : ∀ v ∈ ws, v.1 = P.lo.get P.d1 ∨ v.1 = P.up.get P.d1 ∨ ∃ q, Q q ∧ v.1 = q.x := by
    intro v hv
    rcases mergeLoop_new s (Q := Q) _ _ _ _ _ _
        (fun e he => endsIn_intersecting hP hr.1.1 h1 e (uniqueBy_subset _ _ e he))
        (fun e he => endsIn_intersecting hP hr.1.2 h2 e (uniqueBy_subset _ _ e he))
        (fun e he => endsIn_intersecting hP hr.2 h3 e (uniqueBy_subset _ _ e (List.mem_of_mem_filter he))) hws v hv with h | h
    · split at h
      · simp only [List.mem_singleton] at h; left; rw [h]
      · simp at h
    · exact Or.inr (Or.inr h)
  split at h
  · cases h; exact key
  · split at h
    · cases h
      intro v hv
      rcases List.mem_append.1 hv with hv | hv
      · exact key v hv
      · simp only [List.mem_singleton] at hv
        right; left; rw [hv]
    · cases h; exact key

theorem insertTops_new {P : Params K} : ∀ (vs : List (K × Bool)) (c c' : Cont K), P.insertTops vs c = .ok c' →
    ∀ q ∈ c'.verts, q ∈ c.verts ∨ ∃ v ∈ vs, q = ⟨v.1, P.up.get P.d2⟩ := by
  intro vs
  induction vs with
  | nil => intro c c' h; simp only [Params.insertTops] at h; cases h; exact fun q hq => Or.inl hq
  | cons a vs ih =>
    intro c c' h
    cases vs with
    | nil => simp only [Params.insertTops] at h; cases h; exact fun q hq => Or.inl hq
    | cons b vs =>
      simp only [Params.insertTops] at h
      split at h
      · split at h
        · exact absurd h (by simp)
        · rename_i c1 hc1
          intro q hq
          rcases ih c1 c' h q hq with h' | ⟨v, hv, h'⟩
          · rcases insertEdge_new hc1 q h' with h' | h' | h'
            · exact Or.inl h'
            · exact Or.inr ⟨a, by simp, h'⟩
            · exact Or.inr ⟨b, by simp, h'⟩
          · exact Or.inr ⟨v, List.mem_cons_of_mem _ hv, h'⟩
      · intro q hq
        rcases ih c c' h q hq with h' | ⟨v, hv, h'⟩
        · exact Or.inl h'
        · exact Or.inr ⟨v, List.mem_cons_of_mem _ hv, h'⟩

/-- The first part of closing the contour stays in every rectangle that contains the vertices and the face. -/
theorem closeTop_rect {P : Params K} (hP : P.Sound) {s t : State K} {l u : P2 K}
    (hl : l.x ≤ P.lo.get P.d1 ∧ P.lo.get P.d1 ≤ u.x) (hu : l.x ≤ P.up.get P.d1 ∧ P.up.get P.d1 ≤ u.x)
    (hy : l.y ≤ P.up.get P.d2 ∧ P.up.get P.d2 ≤ u.y)
    (h1 : ∀ q ∈ s.pos.verts, Rect l u q) (h2 : ∀ q ∈ s.neg.verts, Rect l u q) (h3 : ∀ q ∈ s.ver.verts, Rect l u q)
    (h : P.closeTop s = .ok t) : (∀ q ∈ t.pos.verts, Rect l u q) ∧ t.neg = s.neg := by
  unfold Params.closeTop at h
  split at h
  · exact absurd h (by simp)
  rename_i vs left right hv
  split at h
  · exact absurd h (by simp)
  rename_i c hc
  cases h
  refine ⟨?_, rfl⟩
  have top : ∀ v ∈ vs, Rect l u ⟨v.1, P.up.get P.d2⟩ := by
    intro v hvm
    refine ⟨?_, hy⟩
    rcases topVertices_new hP h1 h2 h3 hv v hvm with e | e | ⟨q, hq, e⟩ <;> dsimp only <;> rw [e]
    · exact hl
    · exact hu
    · exact hq.1
  unfold Params.insertClosing at hc
  split at hc
  · split at hc
    · rename_i a b rest _
      split at hc
      · intro q hq
        rcases insertEdge_new hc q hq with h | h | h
        · exact h1 q h
        · rw [h]; exact top a (by simp)
        · rw [h]; exact top b (by simp)
      · cases hc; exact h1
    · exact absurd hc (by simp)
  · intro q hq
    rcases insertTops_new vs _ _ hc q hq with h | ⟨v, hv, h⟩
    · exact h1 q h
    · rw [h]; exact top v hv

/-- A point of an edge in a rectangle is in the rectangle. -/
theorem onLine_rect {l u : P2 K} {e : P2 K × P2 K} {q : P2 K} (h1 : Rect l u e.1) (h2 : Rect l u e.2) (hq : onLine e q) (ha : e.1.x ≤ q.x)
    (hb : q.x ≤ e.2.x) (hd : e.1.x < e.2.x) : Rect l u q := by
  unfold onLine at hq
  have hw : 0 < e.2.x - e.1.x := sub_pos.2 hd
  refine ⟨⟨h1.1.1.trans ha, hb.trans h2.1.2⟩, ?_, ?_⟩
  · by_contra hn
    push Not at hn
    have a1 : 0 ≤ (q.x - e.1.x) * (e.2.y - l.y) := mul_nonneg (by linarith) (by linarith [h2.2.1])
    have a2 : 0 ≤ (e.2.x - q.x) * (e.1.y - l.y) := mul_nonneg (by linarith) (by linarith [h1.2.1])
    have a3 : (q.y - l.y) * (e.2.x - e.1.x) < 0 := mul_neg_of_neg_of_pos (by linarith) hw
    nlinarith
  · by_contra hn
    push Not at hn
    have a1 : 0 ≤ (q.x - e.1.x) * (u.y - e.2.y) := mul_nonneg (by linarith) (by linarith [h2.2.2])
    have a2 : 0 ≤ (e.2.x - q.x) * (u.y - e.1.y) := mul_nonneg (by linarith) (by linarith [h1.2.2])
    have a3 : 0 < (q.y - u.y) * (e.2.x - e.1.x) := mul_pos (by linarith) hw
    nlinarith

theorem cutInto_rect {c c' : Cont K} {l u : P2 K} (hc : ∀ e ∈ c.edges, e.v1 < c.verts.length ∧ e.v2 < c.verts.length)
    (hr : ∀ q ∈ c.verts, Rect l u q) (h : c.CutInto c') : ∀ f ∈ c'.edges, Rect l u (c'.pt f.v1) ∧ Rect l u (c'.pt f.v2) := by
  intro f hf
  obtain ⟨e, he, -, h1⟩ := h.edges f hf
  have hi := hc e he
  have ha := hr _ (pt_mem hi.1)
  have hb := hr _ (pt_mem hi.2)
  rcases h1 with h1 | h1
  · have e1 : c'.pt f.v1 = c.pt e.v1 := congrArg Prod.fst h1
    have e2 : c'.pt f.v2 = c.pt e.v2 := congrArg Prod.snd h1
    rw [e1, e2]
    exact ⟨ha, hb⟩
  · obtain ⟨p0, p1, p2, p3, p4, p5⟩ := h1
    exact ⟨onLine_rect (e := c.ends e) ha hb p4 p1 (p2.trans p3) p0, onLine_rect (e := c.ends e) ha hb p5 (p1.trans p2) p3 p0⟩

theorem partner_mem {P : Params K} {c : Cont K} {a b n : P2 K} {f : Edge K} (h : P.partner c a b n = some f) : f ∈ c.edges := by
  unfold Params.partner at h
  obtain ⟨i, -, h⟩ := Option.bind_eq_some_iff.1 h
  exact List.mem_of_getElem? h

theorem strip_rect {P : Params K} {s : State K} {l u : P2 K} (h1 : ∀ f ∈ s.pos.edges, Rect l u (s.pos.pt f.v1) ∧ Rect l u (s.pos.pt f.v2))
    (h2 : ∀ f ∈ s.neg.edges, Rect l u (s.neg.pt f.v1) ∧ Rect l u (s.neg.pt f.v2)) (hy : l.y ≤ P.lo.get P.d2 ∧ P.lo.get P.d2 ≤ u.y)
    {e : Edge K} (he : e ∈ s.pos.edges) : ∀ q ∈ P.strip s e, Rect l u q := by
  have ha := h1 e he
  unfold Params.strip
  dsimp only
  split
  · intro q hq
    simp only [List.mem_cons, List.not_mem_nil, or_false] at hq
    rcases hq with rfl | rfl | rfl | rfl
    · exact ha.1
    · exact ⟨ha.1.1, hy⟩
    · exact ⟨ha.2.1, hy⟩
    · exact ha.2
  · rename_i f hf
    have hb := h2 f (partner_mem hf)
    intro q hq
    split at hq
    · simp only [List.mem_cons, List.not_mem_nil, or_false] at hq
      rcases hq with rfl | rfl | rfl
      · exact hb.1
      · exact hb.2
      · exact ha.2
    · split at hq
      · simp only [List.mem_cons, List.not_mem_nil, or_false] at hq
        rcases hq with rfl | rfl | rfl
        · exact hb.1
        · exact hb.2
        · exact ha.1
      · simp only [List.mem_cons, List.not_mem_nil, or_false] at hq
        rcases hq with rfl | rfl | rfl | rfl
        · exact ha.1
        · exact hb.1
        · exact hb.2
        · exact ha.2

/-- The cap of a face stays in every rectangle that contains the given edges and the face. -/
theorem run_rect {P : Params K} (hP : P.Sound) (hA : P.Axes) {es : List (Given K)} {m : Clip.ClippedMesh K} (h : P.run es = .ok m) {l u : P2 K}
    (hes : ∀ q ∈ P.points es, Rect l u q) (hl : Rect l u ⟨P.lo.get P.d1, P.lo.get P.d2⟩) (hu : Rect l u ⟨P.up.get P.d1, P.up.get P.d2⟩) :
    m.mesh.check = true ∧ ∃ ts, m.mesh.visit = some ts ∧ ∀ t ∈ ts, t.normal = P.normal ∧
      ∀ v ∈ [t.p1, t.p2, t.p3], ∃ q, v = P.lift q ∧ Rect l u q := by
  unfold Params.run at h
  obtain ⟨s, hs, hgood⟩ := collect_ok hP es
  rw [hs] at h
  dsimp only at h
  split at h
  · exact absurd h (by simp)
  rename_i s' hs'
  have gp := hgood .positive
  have gn := hgood .negative
  have gv := hgood .vertical
  obtain ⟨t, t1, t2, t3, t4, t5, -⟩ := close_cut hP gp.wf gn.wf gp.holds.plain gn.holds.plain hs'
  have hv : ∀ o, ∀ q ∈ (s.get o).verts, Rect l u q := by
    intro o q hq
    obtain ⟨e, he, h⟩ := (hgood o).holds.verts q hq
    have he' : e ∈ es := List.mem_of_mem_filter he
    have := ends_points (P := P) he'
    rcases h with rfl | rfl
    · exact hes _ this.1
    · exact hes _ this.2
  obtain ⟨c1, -⟩ := closeTop_rect hP (l := l) (u := u) hl.1 hu.1 hu.2 (hv .positive) (hv .negative) (hv .vertical) t1
  have r1 := cutInto_rect t2.indices c1 t4
  have r2 := cutInto_rect gn.wf.edges (hv .negative) t5
  obtain ⟨k1, strips, k2, k3⟩ := triangulate_spec hA h
  refine ⟨k1, strips.flatten, k3, ?_⟩
  intro t ht
  obtain ⟨ts, hts, ht⟩ := List.mem_flatten.1 ht
  obtain ⟨e, he, hst⟩ := forall₂_mem_right k2 hts
  exact ⟨hst.normal t ht, hst.rect l u (strip_rect r1 r2 hl.2 he) t ht⟩

end QuESo.Plane
