import Verif.Proofs.PlaneTriangles
import Verif.Proofs.PlaneSplit
import Verif.Proofs.PlaneSet

namespace QuESo.Plane
open QuESo.AABBTree (Fault)
open QuESo.Spec
variable {K : Type} [Field K] [LinearOrder K] [IsStrictOrderedRing K]

/-! ## No faults -/

theorem run_ok {P : Params K} (hP : P.Sound) (es : List (Given K))
    (hbox : ∀ p ∈ P.points es, P.lo.get P.d1 - P.tol < p.x ∧ p.x < P.up.get P.d1 + P.tol)
    (hmax : P.up.get P.d1 - P.lo.get P.d1 + 2 * P.tol ≤ P.maxd) (hlu : P.lo.get P.d1 ≤ P.up.get P.d1)
    (hn : (∃ e ∈ es, P.orient e.1 e.2.1 e.2.2 ≠ some .positive) ∨ es.length ≤ 2) :
    ∃ s s' m, P.collect es = .ok s ∧ P.close s = .ok s' ∧ P.triangulate s' = .ok m := by
  have htol := hP.tol_pos
  obtain ⟨s, hs, hg⟩ := collect_ok hP es
  have gp := hg .positive
  have gn := hg .negative
  have gv := hg .vertical
  have hverts : ∀ o, ∀ p ∈ (s.get o).verts, P.lo.get P.d1 - P.tol < p.x ∧ p.x < P.up.get P.d1 + P.tol := by
    intro o p hp
    obtain ⟨e, he, h⟩ := (hg o).holds.verts p hp
    have he' : e ∈ es := List.mem_of_mem_filter he
    have hin := ends_points (P := P) he'
    rcases h with rfl | rfl
    · exact hbox _ hin.1
    · exact hbox _ hin.2
  have hd : ∀ o, ∀ p ∈ (s.get o).verts, |p.x - P.lo.get P.d1| + P.tol ≤ P.maxd := by
    intro o p hp
    have h := hverts o p hp
    have : |p.x - P.lo.get P.d1| ≤ P.up.get P.d1 - P.lo.get P.d1 + P.tol := by
      rw [abs_le]; constructor <;> linarith [h.1, h.2]
    linarith
  have l1 := gp.length_le
  have l2 := gn.length_le
  have l3 := gv.length_le
  have c1 := gp.holds.count
  have c2 := gn.holds.count
  have hsum := ofOrient_sum P es
  have hlt : (∃ e ∈ es, P.orient e.1 e.2.1 e.2.2 ≠ some .positive) → (P.ofOrient .positive es).length < es.length := ofOrient_lt P
  simp only [State.get] at *
  have hcase : (P.ofOrient .positive es).length < es.length ∨ es.length ≤ 2 := by
    rcases hn with h | h
    · exact Or.inl (hlt h)
    · exact Or.inr h
  obtain ⟨s', h1, w1, w2⟩ := close_ok hP (max (3 * es.length) 10) s gp.wf gn.wf gv.wf gp.fresh gn.fresh gv.fresh
    gp.holds.plain gn.holds.plain (hd .positive) (hd .negative) (hd .vertical) (hverts .negative) gp.vcap
    (le_of_eq gp.ecap.symm) (le_of_eq gn.ecap.symm) (by omega) (by omega) (by omega)
  obtain ⟨m, hm⟩ := triangulate_ok P s' w1 w2
  exact ⟨s, s', m, hs, h1, hm⟩

/-! ## The contour is a graph -/

theorem separated_clustered {tol : K} (ht : 0 < tol) {S : List (P2 K)} (h : Separated tol S) : Clustered tol S := by
  intro a ha b hb
  obtain ⟨h1, h2⟩ := h a ha b hb
  constructor
  · rcases h1 with h1 | h1
    · left; rw [h1, sub_self, abs_zero]; linarith
    · right; linarith
  · rcases h2 with h2 | h2
    · left; rw [h2, sub_self, abs_zero]; linarith
    · right; linarith

theorem separated_near {tol : K} (ht : 0 < tol) {S : List (P2 K)} (h : Separated tol S) {a b : P2 K} (ha : a ∈ S) (hb : b ∈ S)
    (hn : near (2 * tol) a b) : a = b := by
  obtain ⟨h1, h2⟩ := h a ha b hb
  have e1 := h1.resolve_right (not_lt.2 hn.1.le)
  have e2 := h2.resolve_right (not_lt.2 hn.2)
  cases a; cases b; simp_all

theorem cont_of_no_edges {P : Params K} {n : Nat} {c : Cont K} (h : P.Good n [] c) : c.edges = [] ∧ c.verts = [] := by
  have he : c.edges = [] := List.length_eq_zero_iff.1 (Nat.le_zero.1 (by simpa using h.length_le))
  have := h.holds.count
  rw [he] at this
  exact ⟨he, List.length_eq_zero_iff.1 (by simpa using this)⟩

theorem intersecting_nil {P : Params K} (hP : P.Sound) {c : Cont K}
    (h : ∀ e ∈ c.edges, 10 * P.tol ≤ |(c.pt e.v1).y - P.up.get P.d2| ∧ 10 * P.tol ≤ |(c.pt e.v2).y - P.up.get P.d2|) :
    P.intersecting c = [] := by
  unfold Params.intersecting
  dsimp only
  have : (c.edges.filterMap fun e =>
      if decide (|(c.pt e.v1).y - P.up.get P.d2| < 10 * P.tol) ^^ decide (|(c.pt e.v2).y - P.up.get P.d2| < 10 * P.tol) then
        some { e with on1 := decide (|(c.pt e.v1).y - P.up.get P.d2| < 10 * P.tol), on2 := decide (|(c.pt e.v2).y - P.up.get P.d2| < 10 * P.tol) }
      else none) = [] := by
    rw [List.filterMap_eq_nil_iff]
    intro e he
    have := h e he
    simp [not_lt.2 this.1, not_lt.2 this.2]
  rw [this]
  exact List.Perm.eq_nil (hP.sortE _ _)

theorem find_top {P : Params K} (hP : P.Sound) {c : Cont K} (hw : c.WF)
    (h : ∀ p ∈ c.verts, 10 * P.tol ≤ |p.y - P.up.get P.d2|) (x : K) : c.set.find P.tol ⟨x, P.up.get P.d2⟩ = none := by
  have htol := hP.tol_pos
  cases hf : c.set.find P.tol ⟨x, P.up.get P.d2⟩ with
  | none => rfl
  | some i =>
    obtain ⟨p, hp, hn⟩ := find_spec hf
    have h1 := h p (List.mem_of_getElem? (hw.set _ hp))
    have h2 := hn.2
    dsimp only at h2
    linarith

/-- Nothing touches the upper side of the cell: the two corners are the intersected vertices. -/
theorem topVertices_free {P : Params K} (hP : P.Sound) {s : State K} (w1 : s.pos.WF) (w2 : s.neg.WF) (w3 : s.ver.WF)
    (h1 : s.pos.stale = false) (h2 : s.neg.stale = false) (h3 : s.ver.stale = false)
    (t1 : ∀ p ∈ s.pos.verts, 10 * P.tol ≤ |p.y - P.up.get P.d2|) (t2 : ∀ p ∈ s.neg.verts, 10 * P.tol ≤ |p.y - P.up.get P.d2|)
    (t3 : ∀ p ∈ s.ver.verts, 10 * P.tol ≤ |p.y - P.up.get P.d2|) (hw : P.tol < P.up.get P.d1 - P.lo.get P.d1) :
    P.topVertices s = .ok ([(P.lo.get P.d1, true), (P.up.get P.d1, false)], true, true) := by
  have htol := hP.tol_pos
  have hi : ∀ c : Cont K, c.WF → (∀ p ∈ c.verts, 10 * P.tol ≤ |p.y - P.up.get P.d2|) → P.intersecting c = [] := by
    intro c hc ht
    apply intersecting_nil hP
    intro e he
    have := hc.edges e he
    exact ⟨ht _ (pt_mem this.1), ht _ (pt_mem this.2)⟩
  have hm : ∀ x, P.missing s ⟨x, P.up.get P.d2⟩ = .ok true := by
    intro x
    unfold Params.missing Cont.find
    rw [h1, h2, h3]
    simp only [Bool.false_eq_true, if_false]
    rw [find_top hP w1 t1, find_top hP w2 t2, find_top hP w3 t3]
    rfl
  unfold Params.topVertices
  rw [(inRange_iff _).2 w1.edges, (inRange_iff _).2 w2.edges, (inRange_iff _).2 w3.edges, hi _ w1 t1, hi _ w2 t2, hi _ w3 t3, hm, hm]
  have hd : P.tol < |P.lo.get P.d1 - P.up.get P.d1| := by
    rw [abs_sub_comm, abs_of_pos (by linarith)]; exact hw
  simp [Params.dedupVertical, Params.dedup, uniqueBy, Params.mergeLoop, hd]

theorem setSplit_noEdges (P : Params K) (b : Bool) (o : Cont K) : ∀ (ps : List (P2 K)) (c : Cont K), c.edges = [] →
    ps.foldl (fun c p => P.setSplit b o c p) c = c := by
  intro ps
  induction ps with
  | nil => intro c _; rfl
  | cons p ps ih =>
    intro c hc
    have : P.setSplit b o c p = c := by simp [Params.setSplit, hc, Params.destLoop]
    rw [List.foldl_cons, this]
    exact ih c hc

theorem splitLoop_plain (P : Params K) : ∀ (rest kept added : List (Edge K)) (c : Cont K), (∀ e ∈ rest, e.split = []) →
    P.splitLoop rest kept added c = .ok { c with edges := kept ++ rest ++ added } := by
  intro rest
  induction rest with
  | nil => intro kept added c _; simp [Params.splitLoop]
  | cons e rest ih =>
    intro kept added c h
    simp only [Params.splitLoop]
    rw [if_neg (by rw [h e List.mem_cons_self]; simp), ih _ _ _ fun f hf => h f (List.mem_cons_of_mem _ hf)]
    simp

/-- The second part of closing the contour does nothing if there are no negative edges. -/
theorem close_noNegative {P : Params K} {s t : State K} (h : P.closeTop s = .ok t) (w1 : t.pos.WF) (hn : t.neg.edges = []) (hv : t.neg.verts = [])
    (hp : ∀ e ∈ t.pos.edges, e.split = []) : P.close s = .ok t := by
  unfold Params.close
  rw [h]
  have hr : t.neg.inRange = true := by rw [inRange_iff, hn]; simp
  have hss : P.setSplits t = t := by
    unfold Params.setSplits
    dsimp only
    rw [setSplit_noEdges P false t.pos t.pos.verts t.neg hn, hv]
    rfl
  dsimp only
  rw [(inRange_iff _).2 w1.edges, hr, hss]
  simp only [Bool.and_self, Bool.not_true, Bool.false_eq_true, if_false]
  unfold Params.splitEdges
  rw [splitLoop_plain P _ _ _ _ (by rw [hn]; simp), splitLoop_plain P _ _ _ _ hp]
  simp

/-- Without negative edges every strip reaches down to the lower bound. -/
theorem partner_noNegative (P : Params K) {c : Cont K} (h : c.edges = []) (a b n : P2 K) : P.partner c a b n = none := by
  simp [Params.partner, h, Params.partnerLoop]

theorem sumV_append (l m : List (V3 K)) : sumV (l ++ m) = ⟨(sumV l).x + (sumV m).x, (sumV l).y + (sumV m).y, (sumV l).z + (sumV m).z⟩ := by
  simp [sumV]

theorem strips_area {P : Params K} {s : State K} : ∀ {es : List (Edge K)} {strips : List (List (Tri K))},
    List.Forall₂ (P.StripTris s) es strips → sumV (strips.flatten.map fun t => triangleArea2 t.p1 t.p2 t.p3) =
      V3.scale (es.map fun e => area2 (P.strip s e)).sum P.outward := by
  intro es strips h
  induction h with
  | nil => apply V3.ext <;> simp [sumV]
  | cons h1 _ ih =>
    rw [List.flatten_cons, List.map_append, sumV_append, h1.area, ih]
    apply V3.ext <;> simp <;> ring

theorem strip_none {P : Params K} {s : State K} (hn : s.neg.edges = []) (e : Edge K) :
    area2 (P.strip s e) = 2 * (under (s.pos.ends e) - P.lo.get P.d2 * ((s.pos.pt e.v2).x - (s.pos.pt e.v1).x)) := by
  unfold Params.strip
  dsimp only
  rw [partner_noNegative P hn]
  rw [area2_four]
  simp only [under, Cont.ends]
  ring

theorem graph_stored {P : Params K} (hP : P.Sound) {es : List (Given K)} (hg : P.Graph es) {n : Nat} {c : Cont K} (h : P.Good n es c) :
    c.edges.map c.ends = es.map fun e => P.ends e.1 e.2.1 := by
  have htol := hP.tol_pos
  obtain ⟨sub, s1, s2, s3⟩ := h.holds.stored
  have hnt : ∀ e ∈ es, ¬ P.tiny e := by
    intro e he ht
    have hin := ends_points (P := P) he
    have heq := separated_near htol hg.separated hin.1 hin.2 ht
    have hp := hg.positive e he
    unfold Params.orient at hp
    simp only at hp
    rw [heq] at hp
    simp [not_lt.2 htol.le] at hp
  have hf : (es.filter fun e => !decide (P.tiny e)) = es := by
    rw [List.filter_eq_self]
    intro e he
    simp [hnt e he]
  rw [hf] at s1
  have : sub = es := s2.antisymm s1
  subst this
  have hv := h.holds.verts
  have hpts : ∀ p ∈ c.verts, p ∈ P.points sub := by
    intro p hp
    obtain ⟨e, he, h'⟩ := hv p hp
    have hin := ends_points (P := P) he
    rcases h' with rfl | rfl
    · exact hin.1
    · exact hin.2
  have key : ∀ (l : List (Edge K)) (m : List (Given K)), List.Forall₂ (P.standsFor c) l m → (∀ e ∈ m, e ∈ sub) →
      l.map c.ends = m.map fun e => P.ends e.1 e.2.1 := by
    intro l m hlm
    induction hlm with
    | nil => intro _; rfl
    | @cons f e l m h1 _ ih =>
      intro hm
      rw [List.map_cons, List.map_cons, ih fun e he => hm e (List.mem_cons_of_mem _ he)]
      congr 1
      obtain ⟨⟨p, hp, hpn⟩, ⟨q, hq, hqn⟩, _, _⟩ := h1
      have hin := ends_points (P := P) (hm e List.mem_cons_self)
      have h2 : P.tol ≤ 2 * P.tol := by linarith
      have e1 := separated_near htol hg.separated (hpts p (List.mem_of_getElem? hp)) hin.1 (hpn.mono h2)
      have e2 := separated_near htol hg.separated (hpts q (List.mem_of_getElem? hq)) hin.2 (hqn.mono h2)
      unfold Cont.ends Cont.pt
      rw [List.getD_eq_getElem?_getD, List.getD_eq_getElem?_getD, hp, hq, Option.getD_some, Option.getD_some, e1, e2]
  exact key _ _ s3 fun e he => he

theorem maxY_bounds (P : Params K) (ps : List (P2 K)) : -P.maxd ≤ P.maxY ps ∧ (∀ p ∈ ps, p.y ≤ P.maxY ps) ∧
    (P.maxY ps = -P.maxd ∨ ∃ p ∈ ps, P.maxY ps = p.y) := by
  unfold Params.maxY
  have : ∀ (l : List (P2 K)) (m : K), m ≤ l.foldl (fun m p => if p.y > m then p.y else m) m ∧
      (∀ p ∈ l, p.y ≤ l.foldl (fun m p => if p.y > m then p.y else m) m) ∧
      (l.foldl (fun m p => if p.y > m then p.y else m) m = m ∨ ∃ p ∈ l, l.foldl (fun m p => if p.y > m then p.y else m) m = p.y) := by
    intro l
    induction l with
    | nil => intro m; simp
    | cons p l ih =>
      intro m
      rw [List.foldl_cons]
      obtain ⟨h1, h2, h3⟩ := ih (if p.y > m then p.y else m)
      refine ⟨?_, ?_, ?_⟩
      · refine le_trans ?_ h1
        split
        · rename_i h; exact h.le
        · exact le_refl _
      · intro q hq
        rcases List.mem_cons.1 hq with rfl | hq
        · refine le_trans ?_ h1
          split
          · exact le_refl _
          · rename_i h; exact not_lt.1 h
        · exact h2 q hq
      · rcases h3 with h3 | ⟨q, hq, h3⟩
        · rw [h3]
          split
          · right; exact ⟨p, List.mem_cons_self, rfl⟩
          · left; rfl
        · right; exact ⟨q, List.mem_cons_of_mem _ hq, h3⟩
  exact this ps _

theorem testPoint_free {P : Params K} {s : State K} (hn : s.neg.verts = []) (hl : -P.maxd ≤ P.lo.get P.d2) :
    ∃ y, P.testPoint s (P.lo.get P.d1) (P.up.get P.d1) = P.lift ⟨(P.lo.get P.d1 + P.up.get P.d1) / 2, y⟩ ∧
      y = (P.up.get P.d2 + max (P.maxY s.pos.verts) (P.lo.get P.d2)) / 2 := by
  refine ⟨_, ?_, rfl⟩
  unfold Params.testPoint
  dsimp only
  have h1 : P.maxY s.neg.verts = -P.maxd := by rw [hn]; rfl
  rw [h1, max_eq_right (maxY_bounds P s.pos.verts).1]
  congr 2 <;> ring

theorem triangulate_noNegative {P : Params K} (hA : P.Axes) {s : State K} (w1 : s.pos.WF) (w2 : s.neg.WF) (hn : s.neg.edges = []) :
    ∃ m ts, P.triangulate s = .ok m ∧ m.mesh.check = true ∧ m.mesh.visit = some ts ∧ (∀ t ∈ ts, t.normal = P.outward ∧
      t.p1.get P.d3 = P.face ∧ t.p2.get P.d3 = P.face ∧ t.p3.get P.d3 = P.face) ∧
      sumV (ts.map fun t => triangleArea2 t.p1 t.p2 t.p3) = V3.scale (2 * (s.pos.edges.map fun e => under (s.pos.ends e) -
        P.lo.get P.d2 * ((s.pos.ends e).2.x - (s.pos.ends e).1.x)).sum) P.outward ∧
      ((∀ e ∈ s.pos.edges, (s.pos.pt e.v1).x ≤ (s.pos.pt e.v2).x ∧ P.lo.get P.d2 ≤ (s.pos.pt e.v1).y ∧
        P.lo.get P.d2 ≤ (s.pos.pt e.v2).y) → ∀ t ∈ ts, P.Facing t) ∧ (s.pos.edges = [] → ts = []) := by
  obtain ⟨m, hm⟩ := triangulate_ok P s w1 w2
  obtain ⟨h1, strips, h2, h3⟩ := triangulate_spec hA hm
  have hmem : ∀ {es : List (Edge K)} {strips : List (List (Tri K))}, List.Forall₂ (P.StripTris s) es strips →
      ∀ ts ∈ strips, ∃ e ∈ es, P.StripTris s e ts := by
    intro es strips h
    induction h with
    | nil => intro ts hts; simp at hts
    | cons h1 _ ih =>
      intro ts hts
      rcases List.mem_cons.1 hts with rfl | hts
      · exact ⟨_, List.mem_cons_self, h1⟩
      · obtain ⟨e, he, h⟩ := ih ts hts
        exact ⟨e, List.mem_cons_of_mem _ he, h⟩
  refine ⟨m, _, hm, h1, h3, ?_, ?_, ?_, ?_⟩
  · intro t ht
    obtain ⟨l, hl, htl⟩ := List.mem_flatten.1 ht
    obtain ⟨e, _, he⟩ := hmem h2 l hl
    exact ⟨he.normal t htl, he.plane t htl⟩
  · rw [strips_area h2]
    congr 1
    rw [List.map_congr_left fun e _ => strip_none hn e]
    rw [List.sum_map_mul_left]
    rfl
  · intro hup t ht
    obtain ⟨l, hl, htl⟩ := List.mem_flatten.1 ht
    obtain ⟨e, hee, he⟩ := hmem h2 l hl
    apply he.facing _ t htl
    unfold Params.Upright
    dsimp only
    rw [partner_noNegative P hn]
    exact hup e hee
  · intro h0
    rw [h0] at h2
    cases h2
    rfl

end QuESo.Plane
