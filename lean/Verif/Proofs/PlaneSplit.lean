import Verif.Proofs.PlaneDomain
import Mathlib.Tactic.LinearCombination

namespace QuESo.Plane
open QuESo.AABBTree (Fault)
variable {K : Type} [Field K] [LinearOrder K] [IsStrictOrderedRing K]

/-! ## The pieces of an edge -/

theorem pieces_mem : ∀ (l : List (P2 K)) (e : P2 K × P2 K), e ∈ pieces l → e.1 ∈ l ∧ e.2 ∈ l := by
  intro l
  induction l with
  | nil => intro e he; simp [pieces] at he
  | cons a l ih =>
    intro e he
    cases l with
    | nil => simp [pieces] at he
    | cons b l =>
      simp only [pieces, List.mem_cons] at he
      rcases he with rfl | he
      · simp
      · have := ih e he
        exact ⟨List.mem_cons_of_mem _ this.1, List.mem_cons_of_mem _ this.2⟩

theorem pieces_sorted : ∀ (l : List (P2 K)), l.Pairwise (fun a b => a.x ≤ b.x) → ∀ e ∈ pieces l, e.1.x ≤ e.2.x := by
  intro l
  induction l with
  | nil => intro _ e he; simp [pieces] at he
  | cons a l ih =>
    intro h e he
    cases l with
    | nil => simp [pieces] at he
    | cons b l =>
      simp only [pieces, List.mem_cons] at he
      rw [List.pairwise_cons] at h
      rcases he with rfl | he
      · exact h.1 b (by simp)
      · exact ih h.2 e he

theorem pieces_under {m k : K} : ∀ (l : List (P2 K)) (p last : P2 K), (∀ q ∈ p :: (l ++ [last]), q.y = m * q.x + k) →
    ((pieces (p :: (l ++ [last]))).map under).sum = under (p, last) := by
  intro l
  induction l with
  | nil => intro p last _; simp [pieces]
  | cons q l ih =>
    intro p last h
    simp only [List.cons_append, pieces, List.map_cons, List.sum_cons]
    rw [ih q last (fun r hr => h r (by simp only [List.cons_append]; exact List.mem_cons_of_mem _ hr))]
    have h1 := h p (by simp)
    have h2 := h q (by simp)
    have h3 := h last (by simp)
    simp only [under, h1, h2, h3]
    ring

theorem line_of {a b q : P2 K} (h : a.x ≠ b.x) (hq : onLine (a, b) q) :
    q.y = (b.y - a.y) / (b.x - a.x) * q.x + (a.y - (b.y - a.y) / (b.x - a.x) * a.x) := by
  have h' : b.x - a.x ≠ 0 := fun h0 => h (by linarith)
  unfold onLine at hq
  dsimp only at hq
  have : q.y - a.y = (b.y - a.y) / (b.x - a.x) * (q.x - a.x) := by
    field_simp
    linear_combination hq
  linear_combination this

/-- The pieces between split points on an edge have the area of the edge and are parts of it. -/
theorem pieces_edge {P : Params K} (hP : P.Sound) {a b : P2 K} {qs : List (P2 K)} (hne : qs ≠ []) (hq : ∀ q ∈ qs, P.onEdge a b q) :
    ((pieces (a :: (P.sortP qs ++ [b]))).map under).sum = under (a, b) ∧
      ∀ f ∈ pieces (a :: (P.sortP qs ++ [b])), portion (a, b) f := by
  have htol := hP.tol_pos
  have hs : ∀ q ∈ P.sortP qs, P.onEdge a b q := fun q h => hq q ((hP.sortP qs).mem_iff.1 h)
  obtain ⟨q0, hq0⟩ := List.exists_mem_of_ne_nil qs hne
  have h0 := hq q0 hq0
  have hlt : a.x < b.x := by
    have h1 := h0.1
    have h2 := h0.2.1
    linarith
  have hline : ∀ q ∈ a :: (P.sortP qs ++ [b]), onLine (a, b) q := by
    intro q h
    simp only [List.mem_cons, List.mem_append, List.not_mem_nil, or_false] at h
    rcases h with rfl | h | rfl
    · unfold onLine; simp
    · exact (hs q h).2.2
    · unfold onLine; rfl
  have hsorted : (a :: (P.sortP qs ++ [b])).Pairwise (fun a b => a.x ≤ b.x) := by
    rw [List.pairwise_cons, List.pairwise_append]
    refine ⟨?_, hP.sortP_sorted qs, by simp, ?_⟩
    · intro q h
      simp only [List.mem_append, List.mem_singleton] at h
      rcases h with h | rfl
      · linarith [(hs q h).1]
      · exact hlt.le
    · intro q h r hr
      simp only [List.mem_singleton] at hr
      subst hr
      linarith [(hs q h).2.1]
  have hrange : ∀ q ∈ a :: (P.sortP qs ++ [b]), a.x ≤ q.x ∧ q.x ≤ b.x := by
    intro q h
    simp only [List.mem_cons, List.mem_append, List.not_mem_nil, or_false] at h
    rcases h with rfl | h | rfl
    · exact ⟨le_refl _, hlt.le⟩
    · exact ⟨by linarith [(hs q h).1], by linarith [(hs q h).2.1]⟩
    · exact ⟨hlt.le, le_refl _⟩
  refine ⟨pieces_under _ _ _ fun q h => line_of (ne_of_lt hlt) (hline q h), ?_⟩
  intro f hf
  have hm := pieces_mem _ f hf
  exact ⟨hlt, (hrange _ hm.1).1, pieces_sorted _ hsorted f hf, (hrange _ hm.2).2, hline _ hm.1, hline _ hm.2⟩

/-! ## Splitting -/

theorem splitLoop_of_ok {P : Params K} (hP : P.Sound) : ∀ (rest kept added : List (Edge K)) (c c' : Cont K),
    (∀ e ∈ rest, e.v1 < c.verts.length ∧ e.v2 < c.verts.length) → (∀ e ∈ kept, c.Ready e) → (∀ e ∈ added, c.Ready e) →
    (∀ e ∈ rest, ∀ q ∈ e.split, P.onEdge (c.pt e.v1) (c.pt e.v2) q) →
    P.splitLoop rest kept added c = .ok c' → c.Grown c' ∧ (∀ e ∈ c'.edges, c'.Ready e) ∧
      c'.under = (kept.map fun e => under (c.ends e)).sum + (added.map fun e => under (c.ends e)).sum +
        (rest.map fun e => under (c.ends e)).sum ∧
      ∀ f ∈ c'.edges, (∃ e ∈ kept ++ added, f.normal = e.normal ∧ c'.ends f = c.ends e) ∨
        ∃ e ∈ rest, f.normal = e.normal ∧ (c'.ends f = c.ends e ∨ portion (c.ends e) (c'.ends f)) := by
  intro rest
  induction rest with
  | nil =>
    intro kept added c c' _ hk ha _ h
    simp only [Params.splitLoop] at h
    cases h
    refine ⟨⟨List.prefix_refl _, rfl, rfl⟩, ?_, ?_, ?_⟩
    · intro e he
      rcases List.mem_append.1 he with he | he
      · exact hk e he
      · exact ha e he
    · simp [Cont.under, Cont.ends, Cont.pt]
    · intro f hf
      left
      exact ⟨f, hf, rfl, rfl⟩
  | cons e rest ih =>
    intro kept added c c' hr hk ha hsp h
    simp only [Params.splitLoop] at h
    have hre := hr e List.mem_cons_self
    by_cases hs : e.split.length > 0
    · rw [if_pos hs] at h
      split at h
      · exact absurd h (by simp)
      have hne : ¬ e.split = [] := by intro h; rw [h] at hs; simp at hs
      have hq : P.sortP e.split ≠ [] := by
        intro h
        have := (hP.sortP e.split).length_eq
        rw [h] at this; simp at this; omega
      obtain ⟨k1, k2, k3, k4⟩ := splitPieces_spec e (P.sortP e.split) hq c hre.1 hre.2
      obtain ⟨pu, pp⟩ := pieces_edge hP hne (hsp e List.mem_cons_self)
      have hpt : ∀ f ∈ rest, (splitPieces e (P.sortP e.split) c).1.pt f.v1 = c.pt f.v1 ∧
          (splitPieces e (P.sortP e.split) c).1.pt f.v2 = c.pt f.v2 := by
        intro f hf
        have := hr f (List.mem_cons_of_mem _ hf)
        exact ⟨grown_pt k1 this.1, grown_pt k1 this.2⟩
      have hends : ∀ f ∈ rest, (splitPieces e (P.sortP e.split) c).1.ends f = c.ends f := by
        intro f hf
        unfold Cont.ends
        rw [(hpt f hf).1, (hpt f hf).2]
      obtain ⟨e2, e3, e4, e5⟩ := ih kept (added ++ (splitPieces e (P.sortP e.split) c).2)
        (splitPieces e (P.sortP e.split) c).1 c'
        (fun f hf => ⟨lt_of_lt_of_le (hr f (List.mem_cons_of_mem _ hf)).1 k1.verts.length_le,
          lt_of_lt_of_le (hr f (List.mem_cons_of_mem _ hf)).2 k1.verts.length_le⟩)
        (fun f hf => ready_mono k1 (hk f hf))
        (by
          intro f hf
          rcases List.mem_append.1 hf with hf | hf
          · exact ready_mono k1 (ha f hf)
          · exact (k2 f hf).1)
        (by
          intro f hf q hq
          rw [(hpt f hf).1, (hpt f hf).2]
          exact hsp f (List.mem_cons_of_mem _ hf) q hq)
        h
      refine ⟨k1.trans e2, e3, ?_, ?_⟩
      · rw [e4]
        have s1 : (kept.map fun e_1 => under ((splitPieces e (P.sortP e.split) c).1.ends e_1)) = kept.map fun e => under (c.ends e) :=
          List.map_congr_left fun f hf => by rw [ends_mono k1 (hk f hf)]
        have s2 : (added.map fun e_1 => under ((splitPieces e (P.sortP e.split) c).1.ends e_1)) = added.map fun e => under (c.ends e) :=
          List.map_congr_left fun f hf => by rw [ends_mono k1 (ha f hf)]
        have s3 : (rest.map fun e_1 => under ((splitPieces e (P.sortP e.split) c).1.ends e_1)) = rest.map fun e => under (c.ends e) :=
          List.map_congr_left fun f hf => by rw [hends f hf]
        have s4 : ((splitPieces e (P.sortP e.split) c).2.map fun e_1 => under ((splitPieces e (P.sortP e.split) c).1.ends e_1)).sum =
            under (c.ends e) := by
          have := congrArg (fun l => (l.map under).sum) k3
          simp only [List.map_map] at this
          rw [pu] at this
          exact this
        rw [List.map_append, List.sum_append, s1, s2, s3, s4, List.map_cons, List.sum_cons]
        ring
      · intro f hf
        rcases e5 f hf with ⟨g, hg, hn, he⟩ | ⟨g, hg, hn, he⟩
        · rcases List.mem_append.1 hg with hg | hg
          · left
            exact ⟨g, by simp [hg], hn, by rw [he, ends_mono k1 (hk g hg)]⟩
          · rcases List.mem_append.1 hg with hg | hg
            · left
              exact ⟨g, by simp [hg], hn, by rw [he, ends_mono k1 (ha g hg)]⟩
            · right
              refine ⟨e, List.mem_cons_self, hn.trans (k2 g hg).2, Or.inr ?_⟩
              rw [he]
              apply pp
              rw [← k3]
              exact List.mem_map_of_mem hg
        · right
          refine ⟨g, List.mem_cons_of_mem _ hg, hn, ?_⟩
          rwa [hends g hg] at he
    · rw [if_neg hs] at h
      have hnil : e.split = [] := List.length_eq_zero_iff.1 (by omega)
      obtain ⟨e2, e3, e4, e5⟩ := ih (kept ++ [e]) added c c'
        (fun f hf => hr f (List.mem_cons_of_mem _ hf))
        (by
          intro f hf
          rcases List.mem_append.1 hf with hf | hf
          · exact hk f hf
          · simp only [List.mem_singleton] at hf
            subst hf
            exact ⟨hre.1, hre.2, hnil⟩)
        ha (fun f hf => hsp f (List.mem_cons_of_mem _ hf)) h
      refine ⟨e2, e3, ?_, ?_⟩
      · rw [e4]; simp only [List.map_append, List.sum_append, List.map_cons, List.map_nil, List.sum_cons, List.sum_nil]; ring
      · intro f hf
        rcases e5 f hf with ⟨g, hg, hn, he⟩ | ⟨g, hg, hn, he⟩
        · simp only [List.mem_append, List.mem_singleton] at hg
          rcases hg with (hg | rfl) | hg
          · left; exact ⟨g, by simp [hg], hn, he⟩
          · right; exact ⟨g, List.mem_cons_self, hn, Or.inl he⟩
          · left; exact ⟨g, by simp [hg], hn, he⟩
        · right
          exact ⟨g, List.mem_cons_of_mem _ hg, hn, he⟩

/-- Setting split points and splitting. -/
theorem split_cutInto {P : Params K} (hP : P.Sound) {c d d' : Cont K} (hw : c.WF) (hpl : ∀ e ∈ c.edges, e.split = [])
    (hst : P.SplitStep c d) (h : P.splitEdges d = .ok d') : c.CutInto d' ∧ c.verts <+: d'.verts := by
  have wd := splitStep_WF hst hw
  have hsp : ∀ e ∈ d.edges, ∀ q ∈ e.split, P.onEdge (d.pt e.v1) (d.pt e.v2) q := by
    intro e he q hq
    obtain ⟨f, hf, h1, h2, h3, extra, h4, h5⟩ := forall₂_mem_right hst.edges he
    rw [hpl f hf, List.nil_append] at h4
    rw [h4] at hq
    have := h5 q hq
    rw [splitStep_pt hst, splitStep_pt hst, h1, h2]
    exact this
  obtain ⟨g1, g2, g3, g4⟩ := splitLoop_of_ok hP d.edges [] [] d d' wd.edges (by simp) (by simp) hsp h
  have hsum : (d.edges.map fun e => under (d.ends e)) = c.edges.map fun e => under (c.ends e) := by
    have : ∀ (l m : List (Edge K)), List.Forall₂ (P.SplitRel c.verts) l m →
        (m.map fun e => under (d.ends e)) = l.map fun e => under (c.ends e) := by
      intro l m hlm
      induction hlm with
      | nil => rfl
      | cons h1 _ ih =>
        rw [List.map_cons, List.map_cons, ih]
        congr 1
        unfold Cont.ends
        rw [splitStep_pt hst, splitStep_pt hst, h1.1, h1.2.1]
    exact this _ _ hst.edges
  refine ⟨⟨?_, ?_, fun f hf => ⟨(g2 f hf).1, (g2 f hf).2.1⟩⟩, by rw [← hst.verts]; exact g1.verts⟩
  · rw [g3, hsum]; simp [Cont.under]
  · intro f hf
    rcases g4 f hf with ⟨e, he, _⟩ | ⟨e, he, hn, hr⟩
    · simp at he
    · obtain ⟨e0, he0, h1, h2, h3, _⟩ := forall₂_mem_right hst.edges he
      refine ⟨e0, he0, hn.trans h3, ?_⟩
      have : d.ends e = c.ends e0 := by
        unfold Cont.ends
        rw [splitStep_pt hst, splitStep_pt hst, h1, h2]
      rwa [this] at hr

theorem fold_step {P : Params K} (hP : P.Sound) (b : Bool) (o : Cont K) (ps : List (P2 K)) (c : Cont K) :
    P.SplitStep c (ps.foldl (fun c p => P.setSplit b o c p) c) :=
  (setSplit_fold hP b o ps c (fun _ => true) (by intro p _ h; simp at h)).1

/-- The second part of closing the contour. -/
theorem close_of_ok {P : Params K} (hP : P.Sound) {s s' : State K} (h : P.close s = .ok s') :
    ∃ t, P.closeTop s = .ok t ∧ ((t.pos.WF ∧ t.neg.WF ∧ (∀ e ∈ t.pos.edges, e.split = []) ∧ (∀ e ∈ t.neg.edges, e.split = [])) →
      t.pos.CutInto s'.pos ∧ t.neg.CutInto s'.neg ∧ t.pos.verts <+: s'.pos.verts ∧ t.neg.verts <+: s'.neg.verts) := by
  unfold Params.close at h
  split at h
  · exact absurd h (by simp)
  rename_i t ht
  refine ⟨t, ht, ?_⟩
  rintro ⟨w1, w2, p1, p2⟩
  split at h
  · exact absurd h (by simp)
  dsimp only at h
  split at h
  · exact absurd h (by simp)
  rename_i neg hneg
  split at h
  · exact absurd h (by simp)
  rename_i pos hpos
  cases h
  have hn := split_cutInto hP w2 p2 (fold_step hP false t.pos t.pos.verts t.neg) hneg
  have hp := split_cutInto hP w1 p1 (fold_step hP true _ _ t.pos) hpos
  exact ⟨hp.1, hn.1, hp.2, hn.2⟩

/-! ## The first part keeps containers well-formed -/

theorem insertVertex_of_ok {tol : K} {bal : Tree K → Tree K} (hb : ∀ t, (bal t).toList = t.toList) {c c' : Cont K} {p : P2 K} {idx : Nat}
    (hw : c.WF) (h : c.insertVertex tol bal p idx = .ok c') :
    c'.WF ∧ c.verts <+: c'.verts ∧ c'.edges = c.edges ∧ idx < c'.verts.length ∧ (idx = c.verts.length → c'.verts = c.verts ++ [p]) := by
  unfold Cont.insertVertex at h
  split at h
  · rename_i hi
    dsimp only at h
    split at h
    · exact absurd h (by simp)
    cases h
    refine ⟨⟨?_, ?_⟩, ?_, pushVertex_edges c p, ?_, fun _ => pushVertex_verts c p⟩
    · intro q hq
      simp only [pushVertex_verts]
      rcases insert_mem hb hq with rfl | hq
      · simp [hi]
      · rw [pushVertex_set] at hq
        exact prefix_getElem? (List.prefix_append _ _) (hw.set q hq)
    · intro e he
      simp only [pushVertex_verts, pushVertex_edges] at he ⊢
      have := hw.edges e he
      simp only [List.length_append, List.length_singleton]
      omega
    · simp only [pushVertex_verts]; exact List.prefix_append _ _
    · simp only [pushVertex_verts]; simp; omega
  · rename_i hi
    split at h
    · exact absurd h (by simp)
    · cases h
      exact ⟨hw, List.prefix_refl _, rfl, by omega, fun h' => absurd h' hi⟩

theorem insertEdge_of_ok {tol : K} (ht : 0 < tol) {bal : Tree K → Tree K} (hb : ∀ t, (bal t).toList = t.toList) {c c' : Cont K} {v1 v2 n : P2 K}
    (hw : c.WF) (h : c.insertEdge tol bal v1 v2 n = .ok c') :
    c'.WF ∧ c.verts <+: c'.verts ∧ (c'.edges = c.edges ∨ ∃ i1 i2, c'.edges = c.edges ++ [⟨i1, i2, n, [], false, false⟩] ∧
      near tol (c'.pt i1) v1 ∧ near tol (c'.pt i2) v2) := by
  have hfind : ∀ (v : P2 K) i, c.set.find tol v = some i → ∃ p, c.verts[i]? = some p ∧ near tol p v := by
    intro v i hi
    obtain ⟨p, hp, hn⟩ := find_spec hi
    exact ⟨p, hw.set _ hp, hn⟩
  unfold Cont.insertEdge at h
  split at h
  · exact absurd h (by simp)
  rename_i i1 i2 hids
  split at h
  swap
  · cases h; exact ⟨hw, List.prefix_refl _, Or.inl rfl⟩
  rename_i hne
  have hi : (i1 = (c.set.find tol v1).getD c.verts.length) ∧
      (i2 = (c.set.find tol v2).getD (c.verts.length + if (c.set.find tol v1).isSome = true then 0 else 1)) := by
    unfold Cont.uniqueIds Cont.find at hids
    split at hids
    · cases hids; exact absurd rfl hne
    cases hst : c.stale
    · rw [hst] at hids
      simp only [Bool.false_eq_true, if_false] at hids
      split at hids
      · cases hids; exact absurd rfl hne
      · simp only [Except.ok.injEq, Prod.mk.injEq] at hids
        exact ⟨hids.1.symm, hids.2.symm⟩
    · rw [hst] at hids
      simp at hids
  split at h
  · exact absurd h (by simp)
  rename_i ca hca
  split at h
  · exact absurd h (by simp)
  rename_i cb hcb
  cases h
  obtain ⟨a1, a2, a3, a4, a5⟩ := insertVertex_of_ok hb hw hca
  obtain ⟨b1, b2, b3, b4, b5⟩ := insertVertex_of_ok hb a1 hcb
  have hle := b2.length_le
  have hn1 : ∃ p, ca.verts[i1]? = some p ∧ near tol p v1 := by
    cases hf : c.set.find tol v1 with
    | none =>
      rw [hf] at hi
      have := a5 (by simpa using hi.1)
      refine ⟨v1, ?_, near.refl ht v1⟩
      rw [this, hi.1]; simp
    | some i =>
      rw [hf] at hi
      obtain ⟨p, hp, hn⟩ := hfind v1 i hf
      exact ⟨p, by rw [hi.1]; exact prefix_getElem? a2 hp, hn⟩
  have hn2 : ∃ p, cb.verts[i2]? = some p ∧ near tol p v2 := by
    cases hf : c.set.find tol v2 with
    | none =>
      rw [hf] at hi
      have hl : i2 = ca.verts.length := by
        have h2 := hi.2
        simp only [Option.getD_none] at h2
        rw [h2]
        cases hf1 : c.set.find tol v1 with
        | none =>
          rw [hf1] at hi
          rw [a5 (by simpa using hi.1)]; simp
        | some i =>
          rw [hf1] at hi
          obtain ⟨p, hp, _⟩ := hfind v1 i hf1
          have hlt := (List.getElem?_eq_some_iff.1 hp).1
          have h1 := hi.1
          simp only [Option.getD_some] at h1
          unfold Cont.insertVertex at hca
          rw [if_neg (by omega), if_neg (by omega)] at hca
          cases hca
          simp
      refine ⟨v2, ?_, near.refl ht v2⟩
      rw [b5 hl, hl]; simp
    | some i =>
      rw [hf] at hi
      obtain ⟨p, hp, hn⟩ := hfind v2 i hf
      exact ⟨p, by rw [hi.2]; exact prefix_getElem? (a2.trans b2) hp, hn⟩
  obtain ⟨q1, hq1, hn1⟩ := hn1
  obtain ⟨q2, hq2, hn2⟩ := hn2
  have hq1' := prefix_getElem? b2 hq1
  refine ⟨⟨b1.set, ?_⟩, a2.trans b2, Or.inr ⟨i1, i2, by simp only [Cont.pushEdge, b3, a3], ?_, ?_⟩⟩
  · intro e he
    simp only [Cont.pushEdge, List.mem_append, List.mem_singleton] at he ⊢
    rcases he with he | rfl
    · exact b1.edges e he
    · refine ⟨?_, b4⟩
      show i1 < cb.verts.length
      omega
  · unfold Cont.pt
    simp only [Cont.pushEdge, List.getD_eq_getElem?_getD]
    rw [hq1']; exact hn1
  · unfold Cont.pt
    simp only [Cont.pushEdge, List.getD_eq_getElem?_getD]
    rw [hq2]; exact hn2

theorem pt_prefix {c c' : Cont K} (h : c.verts <+: c'.verts) {i : Nat} (hi : i < c.verts.length) : c'.pt i = c.pt i := by
  unfold Cont.pt
  obtain ⟨t, ht⟩ := h
  rw [← ht, List.getD_eq_getElem?_getD, List.getD_eq_getElem?_getD, List.getElem?_append_left hi]

theorem toppedUp_refl (P : Params K) {c : Cont K} (hw : c.WF) : P.ToppedUp c c := ⟨hw.edges, List.prefix_refl _, [], by simp, by simp⟩

theorem toppedUp_trans {P : Params K} {a b c : Cont K} (h1 : P.ToppedUp a b) (h2 : P.ToppedUp b c) : P.ToppedUp a c := by
  obtain ⟨x, x1, x2⟩ := h1.edges
  obtain ⟨y, y1, y2⟩ := h2.edges
  refine ⟨h2.indices, h1.verts.trans h2.verts, x ++ y, by rw [y1, x1, List.append_assoc], ?_⟩
  intro e he
  rcases List.mem_append.1 he with he | he
  · have hlt := h1.indices e (by rw [x1]; simp [he])
    have := x2 e he
    unfold Cont.ends at this ⊢
    rw [pt_prefix h2.verts hlt.1, pt_prefix h2.verts hlt.2]
    exact this
  · exact y2 e he

theorem insertTop_of_ok {P : Params K} (hP : P.Sound) {c c' : Cont K} {l r : K} (hw : c.WF) (h : P.insertTop c l r = .ok c') :
    c'.WF ∧ P.ToppedUp c c' := by
  obtain ⟨h1, h2, h3⟩ := insertEdge_of_ok hP.tol_pos hP.bal hw h
  refine ⟨h1, h1.edges, h2, ?_⟩
  rcases h3 with h3 | ⟨i1, i2, h3, h4, h5⟩
  · exact ⟨[], by simp [h3], by simp⟩
  · exact ⟨_, h3, by simp only [List.mem_singleton, forall_eq]; exact ⟨trivial, trivial, h4.2, h5.2⟩⟩

theorem insertTops_of_ok {P : Params K} (hP : P.Sound) : ∀ (vs : List (K × Bool)) (c c' : Cont K), c.WF → P.insertTops vs c = .ok c' →
    c'.WF ∧ P.ToppedUp c c' := by
  intro vs
  induction vs with
  | nil => intro c c' hw h; simp only [Params.insertTops] at h; cases h; exact ⟨hw, toppedUp_refl P hw⟩
  | cons a vs ih =>
    intro c c' hw h
    cases vs with
    | nil => simp only [Params.insertTops] at h; cases h; exact ⟨hw, toppedUp_refl P hw⟩
    | cons b vs =>
      simp only [Params.insertTops] at h
      split at h
      · split at h
        · exact absurd h (by simp)
        · rename_i c1 hc1
          have h1 := insertTop_of_ok hP hw hc1
          have h2 := ih c1 c' h1.1 h
          exact ⟨h2.1, toppedUp_trans h1.2 h2.2⟩
      · exact ih c c' hw h

theorem closeTop_of_ok {P : Params K} (hP : P.Sound) {s t : State K} (hw : s.pos.WF) (h : P.closeTop s = .ok t) :
    t.pos.WF ∧ P.ToppedUp s.pos t.pos ∧ t.neg = s.neg ∧ t.ver = s.ver := by
  unfold Params.closeTop at h
  split at h
  · exact absurd h (by simp)
  split at h
  · exact absurd h (by simp)
  rename_i c hc
  cases h
  refine and_assoc.1 ⟨?_, rfl, rfl⟩
  unfold Params.insertClosing at hc
  split at hc
  · split at hc
    · split at hc
      · exact insertTop_of_ok hP hw hc
      · cases hc; exact ⟨hw, toppedUp_refl P hw⟩
    · exact absurd hc (by simp)
  · exact insertTops_of_ok hP _ _ _ hw hc

/-- Closing the contour of well-formed containers: first edges on the upper side are added, then edges are cut. -/
theorem close_cut {P : Params K} (hP : P.Sound) {s s' : State K} (w1 : s.pos.WF) (w2 : s.neg.WF) (p1 : ∀ e ∈ s.pos.edges, e.split = [])
    (p2 : ∀ e ∈ s.neg.edges, e.split = []) (h : P.close s = .ok s') :
    ∃ t, P.closeTop s = .ok t ∧ P.ToppedUp s.pos t.pos ∧ t.neg = s.neg ∧ t.pos.CutInto s'.pos ∧ s.neg.CutInto s'.neg ∧
      t.pos.verts <+: s'.pos.verts ∧ s.neg.verts <+: s'.neg.verts := by
  obtain ⟨t, h1, h2⟩ := close_of_ok hP h
  obtain ⟨t0, t1, t2, t3⟩ := closeTop_of_ok hP w1 h1
  obtain ⟨new, n1, n2⟩ := t1.edges
  have := h2 ⟨t0, by rw [t2]; exact w2, by
    intro e he
    rw [n1] at he
    rcases List.mem_append.1 he with he | he
    · exact p1 e he
    · exact (n2 e he).1, by rw [t2]; exact p2⟩
  rw [t2] at this
  exact ⟨t, h1, t1, t2, this⟩

/-! ## The partner -/

theorem partnerLoop_spec {P : Params K} (c : Cont K) (a b n : P2 K) (hzt : 0 < P.zt) : ∀ (l : List (Edge K)) (i : Nat) (cur : K)
    (found : Option Nat),
    (P.partnerLoop c a b n i l cur found = found ∧ ∀ e ∈ l, P.Eligible c a b n e → cur ≤ c.depth a b e) ∨
    ∃ j e, P.partnerLoop c a b n i l cur found = some (i + j) ∧ l[j]? = some e ∧ P.Eligible c a b n e ∧ c.depth a b e < cur ∧
      ∀ f ∈ l, P.Eligible c a b n f → c.depth a b e ≤ c.depth a b f := by
  intro l
  induction l with
  | nil => intro i cur found; left; exact ⟨rfl, by simp⟩
  | cons e l ih =>
    intro i cur found
    have ed : c.depth a b e = 1 / 2 * (a.y + b.y) - 1 / 2 * ((c.pt e.v1).y + (c.pt e.v2).y) := by unfold Cont.depth; ring
    -- the loop body
    have step : (P.Eligible c a b n e ∧ c.depth a b e < cur ∧ P.partnerLoop c a b n i (e :: l) cur found =
          P.partnerLoop c a b n (i + 1) l (c.depth a b e) (some i)) ∨
        ((P.Eligible c a b n e → cur ≤ c.depth a b e) ∧ P.partnerLoop c a b n i (e :: l) cur found =
          P.partnerLoop c a b n (i + 1) l cur found) := by
      simp only [Params.partnerLoop]
      have hcx : (a.x + b.x) / 2 = 1 / 2 * (a.x + b.x) := by ring
      have hcy : (a.y + b.y) / 2 = 1 / 2 * (a.y + b.y) := by ring
      have hox : ((c.pt e.v1).x + (c.pt e.v2).x) / 2 = 1 / 2 * ((c.pt e.v1).x + (c.pt e.v2).x) := by ring
      have hoy : ((c.pt e.v1).y + (c.pt e.v2).y) / 2 = 1 / 2 * ((c.pt e.v1).y + (c.pt e.v2).y) := by ring
      have hpos : (P.face + if P.upper = true then 100 * P.tol else -(100 * P.tol)) =
          (if P.upper = true then P.position + 100 * P.tol else P.position - 100 * P.tol) := by
        show (P.position + if P.upper = true then 100 * P.tol else -(100 * P.tol)) = _
        split <;> ring
      have hel : P.Eligible c a b n e ↔ ((1 / 2 * (a.x + b.x) > (c.pt e.v1).x ∧ 1 / 2 * (a.x + b.x) < (c.pt e.v2).x) ∧
          |a.x - (c.pt e.v1).x| < 10 * P.tol ∧ |b.x - (c.pt e.v2).x| < 10 * P.tol) ∧
          (if |(1 / 2 * ((c.pt e.v1).x + (c.pt e.v2).x) - 1 / 2 * (a.x + b.x)) * n.x +
              (1 / 2 * ((c.pt e.v1).y + (c.pt e.v2).y) - 1 / 2 * (a.y + b.y)) * n.y| ≤ P.zt then
            P.inside ((P.lift ⟨1 / 2 * (a.x + b.x), 1 / 2 * (a.y + b.y)⟩).set P.d3
              (if P.upper = true then P.position + 100 * P.tol else P.position - 100 * P.tol)) = false ∧
              1 / 2 * (a.y + b.y) - 1 / 2 * ((c.pt e.v1).y + (c.pt e.v2).y) > -P.zt
          else (1 / 2 * ((c.pt e.v1).x + (c.pt e.v2).x) - 1 / 2 * (a.x + b.x)) * n.x +
              (1 / 2 * ((c.pt e.v1).y + (c.pt e.v2).y) - 1 / 2 * (a.y + b.y)) * n.y < 0 ∧
              1 / 2 * (a.y + b.y) - 1 / 2 * ((c.pt e.v1).y + (c.pt e.v2).y) ≥ -P.zt) := by
        unfold Params.Eligible
        dsimp only
        rw [hcx, hcy, hox, hoy, hpos]
        constructor
        · rintro ⟨⟨h1, h2, h3, h4⟩, h5⟩; exact ⟨⟨⟨h1, h2⟩, h3, h4⟩, h5⟩
        · rintro ⟨⟨⟨h1, h2⟩, h3, h4⟩, h5⟩; exact ⟨⟨h1, h2, h3, h4⟩, h5⟩
      rw [hel, ed]
      generalize (1 / 2 * ((c.pt e.v1).x + (c.pt e.v2).x) - 1 / 2 * (a.x + b.x)) * n.x +
              (1 / 2 * ((c.pt e.v1).y + (c.pt e.v2).y) - 1 / 2 * (a.y + b.y)) * n.y = value
      generalize 1 / 2 * (a.y + b.y) - 1 / 2 * ((c.pt e.v1).y + (c.pt e.v2).y) = d
      generalize P.inside _ = ins
      by_cases hg : (1 / 2 * (a.x + b.x) > (c.pt e.v1).x ∧ 1 / 2 * (a.x + b.x) < (c.pt e.v2).x) ∧
          |a.x - (c.pt e.v1).x| < 10 * P.tol ∧ |b.x - (c.pt e.v2).x| < 10 * P.tol
      · rw [if_pos hg]
        by_cases hv : |value| ≤ P.zt
        · rw [if_pos hv, if_pos hv]
          by_cases hc : (!ins && decide (d > -P.zt ∧ d < cur)) = true
          · rw [if_pos hc]
            simp only [Bool.and_eq_true, Bool.not_eq_true', decide_eq_true_eq] at hc
            left; exact ⟨⟨hg, hc.1, hc.2.1⟩, hc.2.2, rfl⟩
          · rw [if_neg hc]
            right
            refine ⟨?_, rfl⟩
            rintro ⟨_, h1, h2⟩
            by_contra h3
            apply hc
            simp [h1, h2, not_le.1 h3]
        · rw [if_neg hv, if_neg hv]
          have hvz : value < P.zt ↔ value < 0 := by
            constructor
            · intro h
              by_contra h0
              exact hv (by rw [abs_of_nonneg (not_lt.1 h0)]; exact h.le)
            · intro h; linarith
          by_cases hc : value < P.zt ∧ d ≥ -P.zt ∧ d < cur
          · rw [if_pos hc]
            left; exact ⟨⟨hg, hvz.1 hc.1, hc.2.1⟩, hc.2.2, rfl⟩
          · rw [if_neg hc]
            right
            refine ⟨?_, rfl⟩
            rintro ⟨_, h1, h2⟩
            by_contra h3
            exact hc ⟨hvz.2 h1, h2, not_le.1 h3⟩
      · rw [if_neg hg]
        right
        exact ⟨fun h => absurd h.1 hg, rfl⟩
    rcases step with ⟨s1, s2, s3⟩ | ⟨s1, s2⟩
    · rw [s3]
      rcases ih (i + 1) (c.depth a b e) (some i) with ⟨h1, h2⟩ | ⟨j, f, h1, h2, h3, h4, h5⟩
      · right
        refine ⟨0, e, by simpa using h1, rfl, s1, s2, ?_⟩
        intro f hf hfe
        rcases List.mem_cons.1 hf with rfl | hf
        · exact le_refl _
        · exact h2 f hf hfe
      · right
        refine ⟨j + 1, f, by rw [h1]; congr 1; omega, by simpa using h2, h3, h4.trans s2, ?_⟩
        intro g hg hge
        rcases List.mem_cons.1 hg with rfl | hg
        · exact h4.le
        · exact h5 g hg hge
    · rw [s2]
      rcases ih (i + 1) cur found with ⟨h1, h2⟩ | ⟨j, f, h1, h2, h3, h4, h5⟩
      · left
        refine ⟨h1, ?_⟩
        intro f hf hfe
        rcases List.mem_cons.1 hf with rfl | hf
        · exact s1 hfe
        · exact h2 f hf hfe
      · right
        refine ⟨j + 1, f, by rw [h1]; congr 1; omega, by simpa using h2, h3, h4, ?_⟩
        intro g hg hge
        rcases List.mem_cons.1 hg with rfl | hg
        · exact h4.le.trans (s1 hge)
        · exact h5 g hg hge

end QuESo.Plane
