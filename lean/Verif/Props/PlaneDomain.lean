import Verif.Proofs.PlaneGraph
import Mathlib.Data.List.Sort
import Mathlib.Algebra.Order.Ring.Rat

/-!
# Properties of the cut of a solid with a face of a cell (C46, C72, C73, C74, C75)
-/
namespace QuESo.Plane
open QuESo.AABBTree (Fault)
open QuESo.Spec
variable {K : Type} [Field K] [LinearOrder K] [IsStrictOrderedRing K]

/-! ## Examples -/

/-- The upper face in direction z of a cell; the sorts are insertion sorts and trees are not rebalanced. -/
def exPlane (up : V3 ℚ) (inside : V3 ℚ → Bool) : Params ℚ :=
  { d1 := 0, d2 := 1, d3 := 2, upper := true, switch := false, lo := ⟨0, 0, 0⟩, up := up, tol := 1 / 100, zt := 1 / 10 ^ 12,
    maxd := 10 ^ 9, inside := inside, bal := id,
    sortE := fun vs es => es.insertionSort fun a b =>
      (vs.getD (if a.on1 then a.v1 else a.v2) ⟨0, 0⟩).x ≤ (vs.getD (if b.on1 then b.v1 else b.v2) ⟨0, 0⟩).x,
    sortP := fun ps => ps.insertionSort fun a b => a.x ≤ b.x }

/-- The example meets what is assumed about the constants and the library. -/
theorem exPlane_sound (up : V3 ℚ) (inside : V3 ℚ → Bool) : (exPlane up inside).Sound where
  tol_pos := by simp only [exPlane]; norm_num
  zt_pos := by simp only [exPlane]; norm_num
  bal := fun _ => rfl
  sortE := fun _ _ => List.perm_insertionSort _ _
  sortP := fun _ => List.perm_insertionSort _ _
  sortP_sorted := fun ps => by
    haveI : Std.Total (fun a b : P2 ℚ => a.x ≤ b.x) := ⟨fun a b => le_total a.x b.x⟩
    haveI : IsTrans (P2 ℚ) (fun a b : P2 ℚ => a.x ≤ b.x) := ⟨fun _ _ _ => le_trans⟩
    exact List.pairwise_insertionSort (fun a b : P2 ℚ => a.x ≤ b.x) ps

/-- The example is one of the faces. -/
theorem exPlane_axes (up : V3 ℚ) (inside : V3 ℚ → Bool) : (exPlane up inside).Axes := ⟨2, rfl⟩

/-! ## C46: the vertices of a contour -/

/-- C46: for every sequence of edges the collection succeeds, and for each orientation every stored edge stands for a given one, in
the order of the given ones: its two vertex indices are valid and different, the two vertices are the ends of the given edge
up to the tolerance and it has the normal.  Only edges shorter than twice the tolerance are left out. -/
theorem C46_collect {P : Params K} (hP : P.Sound) (es : List (Given K)) :
    ∃ s, P.collect es = .ok s ∧ ∀ o, ∃ sub, sub.Sublist (P.ofOrient o es) ∧ (∀ e ∈ P.ofOrient o es, ¬ P.tiny e → e ∈ sub) ∧
      List.Forall₂ (P.standsFor (s.get o)) (s.get o).edges sub := by
  obtain ⟨s, h1, h2⟩ := collect_ok hP es
  refine ⟨s, h1, fun o => ?_⟩
  obtain ⟨sub, s1, s2, s3⟩ := (h2 o).holds.stored
  refine ⟨sub, s2, ?_, s3⟩
  intro e he ht
  exact s1.subset (List.mem_filter.2 ⟨he, by simpa using ht⟩)

/-- C46: the collected edges refer to vertices of their container through the whole run: the indices of all edges are valid when the
contour has been closed on the upper side and cut, and no vertex is moved. -/
theorem C46_indices_stay_valid {P : Params K} (hP : P.Sound) (es : List (Given K)) {s s' : State K} (hc : P.collect es = .ok s)
    (h : P.close s = .ok s') :
    (∀ f ∈ s'.pos.edges, f.v1 < s'.pos.verts.length ∧ f.v2 < s'.pos.verts.length) ∧
      (∀ f ∈ s'.neg.edges, f.v1 < s'.neg.verts.length ∧ f.v2 < s'.neg.verts.length) ∧
      s.pos.verts <+: s'.pos.verts ∧ s.neg.verts <+: s'.neg.verts := by
  obtain ⟨s0, h1, h2⟩ := collect_ok hP es
  rw [h1] at hc
  cases hc
  have gp := h2 .positive
  have gn := h2 .negative
  obtain ⟨t, t1, t2, t3, t4, t5, t6, t7⟩ := close_cut hP gp.wf gn.wf gp.holds.plain gn.holds.plain h
  exact ⟨t4.indices, t5.indices, t2.verts.trans t6, t7⟩

/-- C46: if the ends are clustered, i.e. any two of them are closer than half the tolerance or farther apart than the tolerance in each
direction, then no two vertices of an orientation are the same up to the tolerance, and two ends of stored edges get the same
vertex exactly if they are the same up to the tolerance. -/
theorem C46_merged {P : Params K} (hP : P.Sound) (es : List (Given K)) (hS : Clustered P.tol (P.points es)) {s : State K}
    (hc : P.collect es = .ok s) (o : Orient) :
    ((s.get o).verts.Pairwise fun p q => ¬ near P.tol p q) ∧
    ∀ (i j : Nat) (p q a b : P2 K), (s.get o).verts[i]? = some p → (s.get o).verts[j]? = some q → a ∈ P.points es → b ∈ P.points es →
      near P.tol p a → near P.tol q b → (i = j ↔ near P.tol a b) := by
  have htol := hP.tol_pos
  have hap : (s.get o).Apart P.tol (P.points es) := by
    refine collectLoop_apart hP hS es _ s (fun e he => ends_points he) ?_ hc o
    intro o'
    cases o' <;> exact apart_empty _ _ _
  refine ⟨hap.apart, ?_⟩
  intro i j p q a b hi hj ha hb hpa hqb
  have hp := hap.points p (List.mem_of_getElem? hi)
  have hq := hap.points q (List.mem_of_getElem? hj)
  constructor
  · rintro rfl
    rw [hi] at hj
    cases hj
    exact clustered_near htol hS ha hp hb hpa.symm hqb
  · intro hab
    have hpq := clustered_near htol hS hp ha hq hpa (clustered_near htol hS ha hb hq hab hqb.symm)
    have hpw := List.pairwise_iff_getElem.1 hap.apart
    obtain ⟨li, ei⟩ := List.getElem?_eq_some_iff.1 hi
    obtain ⟨lj, ej⟩ := List.getElem?_eq_some_iff.1 hj
    rcases Nat.lt_trichotomy i j with h | h | h
    · exact absurd (by rw [ei, ej]; exact hpq) (hpw i j li lj h)
    · exact h
    · exact absurd (by rw [ei, ej]; exact hpq.symm) (hpw j i lj li h)

/-- The four edges of the example in which a point is stored twice: the point (-9/1000, -5/1000) is an end of the third and of the
fourth edge. -/
def exTwice : List (Given ℚ) :=
  [(⟨0, 0, 1⟩, ⟨5, 0, 1⟩, ⟨0, 1, 0⟩), (⟨-15 / 1000, 1 / 10, 1⟩, ⟨7, 0, 1⟩, ⟨0, 1, 0⟩),
   (⟨-9 / 1000, -5 / 1000, 1⟩, ⟨7, 0, 1⟩, ⟨0, 1, 0⟩), (⟨-9 / 1000, -5 / 1000, 1⟩, ⟨5, 0, 1⟩, ⟨0, 1, 0⟩)]

/-- C46 needs clustered ends to merge: with the tolerance the comparison of points is not an order, and the very same point can be
stored as two vertices, both of them close to a third one.  The set has at most four elements here, which the insertions leave in
the shape in which they were made. -/
theorem C46_same_point_twice : ∃ s, (exPlane ⟨10, 1, 1⟩ fun _ => false).collect exTwice = .ok s ∧
    s.pos.verts = [⟨0, 0⟩, ⟨5, 0⟩, ⟨-15 / 1000, 1 / 10⟩, ⟨7, 0⟩, ⟨-9 / 1000, -5 / 1000⟩, ⟨-9 / 1000, -5 / 1000⟩] ∧
    s.pos.edges.map (fun e => (e.v1, e.v2)) = [(0, 1), (2, 3), (4, 3), (5, 1)] := by
  have h : ((exPlane ⟨10, 1, 1⟩ fun _ => false).collect exTwice).toOption.map (fun s => (s.pos.verts, s.pos.edges.map fun e => (e.v1, e.v2))) =
      some ([⟨0, 0⟩, ⟨5, 0⟩, ⟨-15 / 1000, 1 / 10⟩, ⟨7, 0⟩, ⟨-9 / 1000, -5 / 1000⟩, ⟨-9 / 1000, -5 / 1000⟩], [(0, 1), (2, 3), (4, 3), (5, 1)]) := by
    decide +kernel
  cases hc : (exPlane ⟨10, 1, 1⟩ fun _ => false).collect exTwice with
  | error e => rw [hc] at h; exact absurd h (by simp [Except.toOption])
  | ok s =>
    rw [hc] at h
    simp only [Except.toOption, Option.map_some, Option.some.injEq, Prod.mk.injEq] at h
    exact ⟨s, rfl, h.1, h.2⟩

/-- Two edges of a roof, with a common point. -/
def exRoof : List (Given ℚ) :=
  [(⟨0, 1 / 2, 1⟩, ⟨2, 3 / 4, 1⟩, ⟨-1, 8, 0⟩), (⟨4, 1 / 2, 1⟩, ⟨2, 3 / 4, 1⟩, ⟨1, 8, 0⟩)]

/-- C46 is not empty: the ends of the roof are clustered, and the common point is one vertex. -/
example : Clustered (1 / 100) ((exPlane ⟨4, 1, 1⟩ fun _ => false).points exRoof) ∧
    (((exPlane ⟨4, 1, 1⟩ fun _ => false).collect exRoof).toOption.map fun s => (s.pos.verts, s.pos.edges.map fun e => (e.v1, e.v2))) =
      some ([⟨0, 1 / 2⟩, ⟨2, 3 / 4⟩, ⟨4, 1 / 2⟩], [(0, 1), (1, 2)]) := by
  constructor
  · unfold Clustered; decide +kernel
  · decide +kernel

/-! ## C72: no invalid memory is used -/

/-- C72, partial: the cap of a face is computed without use of moved memory, without endless loop and without error, for all edges
within the face, if one of them does not face upwards or there are at most two.  The full statement is for every list of edges,
see `C72_false_of_code`. -/
theorem C72_safe_partial {P : Params K} (hP : P.Sound) (es : List (Given K))
    (hbox : ∀ p ∈ P.points es, P.lo.get P.d1 - P.tol < p.x ∧ p.x < P.up.get P.d1 + P.tol)
    (hmax : P.up.get P.d1 - P.lo.get P.d1 + 2 * P.tol ≤ P.maxd) (hlu : P.lo.get P.d1 ≤ P.up.get P.d1)
    (hn : (∃ e ∈ es, P.orient e.1 e.2.1 e.2.2 ≠ some .positive) ∨ es.length ≤ 2) : ∃ m, P.run es = .ok m := by
  obtain ⟨s, s', m, h1, h2, h3⟩ := run_ok hP es hbox hmax hlu hn
  refine ⟨m, ?_⟩
  unfold Params.run
  rw [h1]
  dsimp only
  rw [h2]
  exact h3

/-- Four edges that face upwards and end five tolerances below the upper side of the cell. -/
def exFour : List (Given ℚ) :=
  [(⟨1 / 2, 19 / 20, 1⟩, ⟨9 / 10, 0, 1⟩, ⟨1, 1, 0⟩), (⟨11 / 10, 0, 1⟩, ⟨3 / 2, 19 / 20, 1⟩, ⟨-1, 1, 0⟩),
   (⟨5 / 2, 19 / 20, 1⟩, ⟨29 / 10, 0, 1⟩, ⟨1, 1, 0⟩), (⟨31 / 10, 0, 1⟩, ⟨7 / 2, 19 / 20, 1⟩, ⟨-1, 1, 0⟩)]

/-- C72 is false of the code: these four edges need fourteen vertices, but memory for twelve is reserved.  The thirteenth vertex moves
the vector to which the set of vertices refers, and the next look into the set is undefined behaviour. -/
theorem C72_false_of_code : (∀ e ∈ exFour, (exPlane ⟨4, 1, 1⟩ fun _ => false).orient e.1 e.2.1 e.2.2 = some .positive) ∧
    (∀ p ∈ (exPlane ⟨4, 1, 1⟩ fun _ => false).points exFour, 0 < p.x ∧ p.x < 4 ∧ 0 ≤ p.y ∧ p.y < 1) ∧
    ((exPlane ⟨4, 1, 1⟩ fun _ => false).run exFour).toOption.isNone = true ∧
    (match (exPlane ⟨4, 1, 1⟩ fun _ => false).run exFour with | .error .ub => True | _ => False) := by
  refine ⟨by decide +kernel, by decide +kernel, by decide +kernel, ?_⟩
  have h : (match (exPlane ⟨4, 1, 1⟩ fun _ => false).run exFour with | .error .ub => true | _ => false) = true := by decide +kernel
  revert h
  cases (exPlane ⟨4, 1, 1⟩ fun _ => false).run exFour with
  | error e => cases e <;> simp
  | ok m => simp

/-- A window: an edge that faces down above an edge that faces up, and a vertical one. -/
def exWindow : List (Given ℚ) :=
  [(⟨1, 3 / 4, 1⟩, ⟨3, 3 / 4, 1⟩, ⟨0, 1, 0⟩), (⟨1, 1 / 4, 1⟩, ⟨3, 1 / 4, 1⟩, ⟨0, -1, 0⟩), (⟨1, 1 / 4, 1⟩, ⟨1, 3 / 4, 1⟩, ⟨-1, 0, 0⟩),
   (⟨3, 1 / 4, 1⟩, ⟨3, 3 / 4, 1⟩, ⟨1, 0, 0⟩)]

/-- C72 is not empty: the edges of a rectangle in the face meet the hypotheses. -/
example : (∀ p ∈ (exPlane ⟨4, 1, 1⟩ fun _ => false).points exWindow, (0 : ℚ) - 1 / 100 < p.x ∧ p.x < 4 + 1 / 100) ∧
    (∃ e ∈ exWindow, (exPlane ⟨4, 1, 1⟩ fun _ => false).orient e.1 e.2.1 e.2.2 ≠ some .positive) ∧
    (((exPlane ⟨4, 1, 1⟩ fun _ => false).run exWindow).toOption.map fun m => m.mesh.triangles.length) = some 4 := by
  refine ⟨by decide +kernel, by decide +kernel, by decide +kernel⟩

/-! ## C73: the cap -/

/-- C73: the triangles of the cap belong to strips, one below each edge of the closed contour that faces upwards.  The mesh is valid,
all triangles lie in the face and have its outer normal, and the area vectors of the triangles of each strip add up to its area in
the direction of the normal.  The triangles of a strip which is not turned over all point outwards, and its area is the area
between the two edges up to half the tolerance times the width. -/
theorem C73_cap {P : Params K} (hP : P.Sound) (hA : P.Axes) {s : State K} {m : Clip.ClippedMesh K} (h : P.triangulate s = .ok m) :
    m.mesh.check = true ∧ ∃ strips, m.mesh.visit = some strips.flatten ∧ List.Forall₂ (fun e ts =>
      (∀ t ∈ ts, t.normal = P.outward ∧ t.p1.get P.d3 = P.face ∧ t.p2.get P.d3 = P.face ∧ t.p3.get P.d3 = P.face) ∧
      sumV (ts.map fun t => triangleArea2 t.p1 t.p2 t.p3) = V3.scale (area2 (P.strip s e)) P.outward ∧
      (P.Upright s e → (∀ t ∈ ts, ∃ k, 0 ≤ k ∧ triangleArea2 t.p1 t.p2 t.p3 = V3.scale k P.outward) ∧
        abs (area2 (P.strip s e) / 2 - P.below s e) ≤ P.tol * ((s.pos.ends e).2.x - (s.pos.ends e).1.x) / 2)) s.pos.edges strips := by
  obtain ⟨h1, strips, h2, h3⟩ := triangulate_spec hA h
  refine ⟨h1, strips, h3, h2.imp ?_⟩
  intro e ts hts
  exact ⟨fun t ht => ⟨hts.normal t ht, hts.plane t ht⟩, hts.area, fun hu => ⟨hts.facing hu, strip_below hP hu⟩⟩

/-- C73: a face of the cell which no edge of the solid touches is covered completely or left open, as its centre is inside the solid or
not.  If it is covered, all triangles point outwards and their area is the area of the face. -/
theorem C73_untouched {P : Params K} (hP : P.Sound) (hA : P.Axes) (hw : P.tol < P.up.get P.d1 - P.lo.get P.d1)
    (hh : P.lo.get P.d2 ≤ P.up.get P.d2) (hl : -P.maxd ≤ P.lo.get P.d2) :
    ∃ m ts, P.run [] = .ok m ∧ m.mesh.check = true ∧ m.mesh.visit = some ts ∧ (∀ t ∈ ts, t.normal = P.outward ∧
      t.p1.get P.d3 = P.face ∧ t.p2.get P.d3 = P.face ∧ t.p3.get P.d3 = P.face ∧
      ∃ k, 0 ≤ k ∧ triangleArea2 t.p1 t.p2 t.p3 = V3.scale k P.outward) ∧
      (P.inside (P.lift ⟨(P.lo.get P.d1 + P.up.get P.d1) / 2, (P.lo.get P.d2 + P.up.get P.d2) / 2⟩) = false → ts = []) ∧
      (P.inside (P.lift ⟨(P.lo.get P.d1 + P.up.get P.d1) / 2, (P.lo.get P.d2 + P.up.get P.d2) / 2⟩) = true →
        sumV (ts.map fun t => triangleArea2 t.p1 t.p2 t.p3) =
          V3.scale (2 * ((P.up.get P.d1 - P.lo.get P.d1) * (P.up.get P.d2 - P.lo.get P.d2))) P.outward) := by
  have htol := hP.tol_pos
  have hcol : P.collect [] = .ok ⟨.empty 10, .empty 10, .empty 10⟩ := rfl
  have hw0 := WF_empty (K := K) 10
  have htop : P.topVertices ⟨.empty 10, .empty 10, .empty 10⟩ =
      .ok ([(P.lo.get P.d1, true), (P.up.get P.d1, false)], true, true) :=
    topVertices_free hP hw0 hw0 hw0 rfl rfl rfl (by intro p hp; simp [Cont.empty] at hp) (by intro p hp; simp [Cont.empty] at hp)
      (by intro p hp; simp [Cont.empty] at hp) hw
  obtain ⟨y, hy1, hy2⟩ := testPoint_free (P := P) (s := ⟨.empty 10, .empty 10, .empty 10⟩) rfl hl
  have hy : y = (P.lo.get P.d2 + P.up.get P.d2) / 2 := by
    rw [hy2, show P.maxY (Cont.empty 10 : Cont K).verts = -P.maxd from rfl, max_eq_right hl]; ring
  rw [hy] at hy1
  cases hin : P.inside (P.lift ⟨(P.lo.get P.d1 + P.up.get P.d1) / 2, (P.lo.get P.d2 + P.up.get P.d2) / 2⟩) with
  | false =>
    have hclose : P.closeTop ⟨.empty 10, .empty 10, .empty 10⟩ = .ok ⟨.empty 10, .empty 10, .empty 10⟩ := by
      simp [Params.closeTop, htop, Params.insertClosing, hy1, hin]
    have hc := close_noNegative hclose hw0 rfl rfl (by intro e he; simp [Cont.empty] at he)
    obtain ⟨m, ts, k1, k2, k3, k4, k5, k6, k7⟩ := triangulate_noNegative hA (s := ⟨.empty 10, .empty 10, .empty 10⟩) hw0 hw0 rfl
    have hts : ts = [] := k7 rfl
    subst hts
    refine ⟨m, [], ?_, k2, k3, by simp, fun _ => rfl, by simp⟩
    unfold Params.run
    rw [hcol]
    dsimp only
    rw [hc]
    exact k1
  | true =>
    have hne : near P.tol (⟨P.lo.get P.d1, P.up.get P.d2⟩ : P2 K) ⟨P.up.get P.d1, P.up.get P.d2⟩ → False := by
      intro h
      have := abs_lt.1 h.1
      dsimp only at this
      linarith [this.1]
    obtain ⟨c, hc1, hc2⟩ := insertTop_ok hP hw0 rfl (P.lo.get P.d1, true) (P.up.get P.d1, false) (by simp [Cont.empty])
    dsimp only at hc1
    have hclose : P.closeTop ⟨.empty 10, .empty 10, .empty 10⟩ = .ok ⟨c, .empty 10, .empty 10⟩ := by
      simp [Params.closeTop, htop, Params.insertClosing, hy1, hin, hc1]
    -- the edge
    have hedge : c.edges = [⟨0, 1, ⟨0, 1⟩, [], false, false⟩] ∧
        c.verts = [⟨P.lo.get P.d1, P.up.get P.d2⟩, ⟨P.up.get P.d1, P.up.get P.d2⟩] := by
      have hless : less P.tol (⟨P.lo.get P.d1, P.up.get P.d2⟩ : P2 K) ⟨P.up.get P.d1, P.up.get P.d2⟩ = true := by
        unfold less
        rw [if_neg (by rw [not_lt, abs_sub_comm, abs_of_pos (by dsimp only; linarith)]; exact hw.le), decide_eq_true_eq]
        dsimp only; linarith
      unfold Params.insertTop Cont.insertEdge Cont.uniqueIds at hc1
      simp [hless, Cont.find, Cont.empty, Tree.find, Tree.lowerBound, Cont.insertVertex, Cont.pushVertex, Cont.pushEdge] at hc1
      rw [← hc1]
      exact ⟨rfl, rfl⟩
    have hc := close_noNegative hclose hc2.wf rfl rfl (by rw [hedge.1]; simp)
    obtain ⟨m, ts, k1, k2, k3, k4, k5, k6, k7⟩ := triangulate_noNegative hA (s := ⟨c, .empty 10, .empty 10⟩) hc2.wf hw0 rfl
    have hp0 : c.pt 0 = ⟨P.lo.get P.d1, P.up.get P.d2⟩ := by unfold Cont.pt; rw [hedge.2]; rfl
    have hp1 : c.pt 1 = ⟨P.up.get P.d1, P.up.get P.d2⟩ := by unfold Cont.pt; rw [hedge.2]; rfl
    refine ⟨m, ts, ?_, k2, k3, ?_, by simp, ?_⟩
    · unfold Params.run
      rw [hcol]
      dsimp only
      rw [hc]
      exact k1
    · intro t ht
      obtain ⟨j1, j2, j3, j4⟩ := k4 t ht
      refine ⟨j1, j2, j3, j4, k6 ?_ t ht⟩
      intro e he
      dsimp only at he ⊢
      rw [hedge.1, List.mem_singleton] at he
      subst he
      dsimp only
      rw [hp0, hp1]
      exact ⟨by dsimp only; linarith, hh, hh⟩
    · intro _
      rw [k5]
      congr 1
      dsimp only
      rw [hedge.1]
      simp only [List.map_cons, List.map_nil, List.sum_cons, List.sum_nil, Cont.ends, hp0, hp1, under]
      ring

/-- C73 is not empty: a face with centre inside. -/
example : (((exPlane ⟨4, 1, 1⟩ fun _ => true).run []).toOption.map fun m => m.mesh.triangles.length) = some 4 ∧
    (1 : ℚ) / 100 < 4 - 0 := ⟨by decide +kernel, by norm_num⟩

/-- C73: if the contour is the graph of edges that face upwards, with separated ends away from the upper side, and the solid is below
it, then the area of the cap is exactly the area between the edges and the lower side of the face, in the direction of the outer
normal, and all triangles lie in the face; if the edges run above the lower side all triangles point outwards. -/
theorem C73_graph {P : Params K} (hP : P.Sound) (hA : P.Axes) {es : List (Given K)} (hg : P.Graph es)
    (hw : P.tol < P.up.get P.d1 - P.lo.get P.d1) (hh : P.lo.get P.d2 < P.up.get P.d2) (hl : -P.maxd ≤ P.lo.get P.d2) :
    ∃ m ts, P.run es = .ok m ∧ m.mesh.check = true ∧ m.mesh.visit = some ts ∧ (∀ t ∈ ts, t.normal = P.outward ∧
      t.p1.get P.d3 = P.face ∧ t.p2.get P.d3 = P.face ∧ t.p3.get P.d3 = P.face) ∧
      sumV (ts.map fun t => triangleArea2 t.p1 t.p2 t.p3) = V3.scale (2 * P.areaBelow es) P.outward ∧
      ((∀ p ∈ P.points es, P.lo.get P.d2 ≤ p.y) → ∀ t ∈ ts, ∃ k, 0 ≤ k ∧ triangleArea2 t.p1 t.p2 t.p3 = V3.scale k P.outward) := by
  have htol := hP.tol_pos
  obtain ⟨s, hs, hgood⟩ := collect_ok hP es
  have o1 : P.ofOrient .positive es = es := by
    unfold Params.ofOrient
    rw [List.filter_eq_self]
    intro e he
    simp [hg.positive e he]
  have o2 : P.ofOrient .negative es = [] := by
    unfold Params.ofOrient
    rw [List.filter_eq_nil_iff]
    intro e he
    simp [hg.positive e he]
  have o3 : P.ofOrient .vertical es = [] := by
    unfold Params.ofOrient
    rw [List.filter_eq_nil_iff]
    intro e he
    simp [hg.positive e he]
  have gp := hgood .positive
  have gn := hgood .negative
  have gv := hgood .vertical
  rw [o1] at gp
  rw [o2] at gn
  rw [o3] at gv
  simp only [State.get] at gp gn gv
  obtain ⟨n1, n2⟩ := cont_of_no_edges gn
  obtain ⟨v1, v2⟩ := cont_of_no_edges gv
  have hst := graph_stored hP hg gp
  have hpts : ∀ p ∈ s.pos.verts, p ∈ P.points es := by
    intro p hp
    obtain ⟨e, he, h'⟩ := gp.holds.verts p hp
    have hin := ends_points (P := P) he
    rcases h' with rfl | rfl
    · exact hin.1
    · exact hin.2
  have hfar : ∀ p ∈ P.points es, 10 * P.tol ≤ |p.y - P.up.get P.d2| := by
    intro p hp
    have := hg.top p hp
    rw [abs_sub_comm, abs_of_nonneg (by linarith)]
    linarith
  have htop := topVertices_free hP gp.wf gn.wf gv.wf gp.fresh gn.fresh gv.fresh (fun p hp => hfar p (hpts p hp))
    (by rw [n2]; simp) (by rw [v2]; simp) hw
  obtain ⟨y, hy1, hy2⟩ := testPoint_free (P := P) (s := s) n2 hl
  have hverts : ∀ p ∈ P.points es, p ∈ s.pos.verts := by
    intro p hp
    unfold Params.points at hp
    obtain ⟨e, he, hpe⟩ := List.mem_flatMap.1 hp
    have : P.ends e.1 e.2.1 ∈ s.pos.edges.map s.pos.ends := by
      rw [hst]; exact List.mem_map.2 ⟨e, he, rfl⟩
    obtain ⟨f, hf, hfe⟩ := List.mem_map.1 this
    have hlt := gp.wf.edges f hf
    have e1 : (P.ends e.1 e.2.1).1 = s.pos.pt f.v1 := by rw [← hfe]; rfl
    have e2 : (P.ends e.1 e.2.1).2 = s.pos.pt f.v2 := by rw [← hfe]; rfl
    have hcase : p = (P.ends e.1 e.2.1).1 ∨ p = (P.ends e.1 e.2.1).2 := by
      simp only [List.mem_cons, List.not_mem_nil, or_false] at hpe
      unfold Params.ends
      split
      · exact hpe
      · exact hpe.symm
    rcases hcase with h | h
    · rw [h, e1]; exact pt_mem hlt.1
    · rw [h, e2]; exact pt_mem hlt.2
  have hout : P.inside (P.testPoint s (P.lo.get P.d1) (P.up.get P.d1)) = false := by
    rw [hy1]
    obtain ⟨m1, m2, m3⟩ := maxY_bounds P s.pos.verts
    have hmlt : max (P.maxY s.pos.verts) (P.lo.get P.d2) < P.up.get P.d2 := by
      apply max_lt _ hh
      rcases m3 with m3 | ⟨p, hp, m3⟩
      · rw [m3]; linarith
      · rw [m3]; have := hg.top p (hpts p hp); linarith
    apply hg.outside
    · intro p hp
      have h1 := m2 p (hverts p hp)
      have h2 := le_max_left (P.maxY s.pos.verts) (P.lo.get P.d2)
      rw [hy2]; linarith
    · have h2 := le_max_right (P.maxY s.pos.verts) (P.lo.get P.d2)
      rw [hy2]; linarith
    · rw [hy2]; linarith
  have hclose : P.closeTop s = .ok s := by
    simp [Params.closeTop, htop, Params.insertClosing, hout]
  have hc := close_noNegative hclose gp.wf n1 n2 gp.holds.plain
  obtain ⟨m, ts, k1, k2, k3, k4, k5, k6, k7⟩ := triangulate_noNegative hA gp.wf gn.wf n1
  refine ⟨m, ts, ?_, k2, k3, k4, ?_, ?_⟩
  · unfold Params.run
    rw [hs]
    dsimp only
    rw [hc]
    exact k1
  · rw [k5]
    congr 2
    unfold Params.areaBelow
    have := congrArg (List.map fun e : P2 K × P2 K => under e - P.lo.get P.d2 * (e.2.x - e.1.x)) hst
    rw [List.map_map, List.map_map] at this
    exact congrArg List.sum this
  · intro hlow
    apply k6
    intro e he
    have hlt := gp.wf.edges e he
    refine ⟨?_, hlow _ (hpts _ (pt_mem hlt.1)), hlow _ (hpts _ (pt_mem hlt.2))⟩
    have : s.pos.ends e ∈ es.map fun e => P.ends e.1 e.2.1 := by rw [← hst]; exact List.mem_map_of_mem he
    obtain ⟨g, _, hge⟩ := List.mem_map.1 this
    have hx : (P.ends g.1 g.2.1).1.x ≤ (P.ends g.1 g.2.1).2.x := by
      unfold Params.ends Params.proj
      split
      · rename_i h; exact h.le
      · rename_i h; exact not_lt.1 h
    rw [hge] at hx
    exact hx

/-- C73 is not empty: the roof is a graph, its cap has the area below it. -/
example : (∀ e ∈ exRoof, (exPlane ⟨4, 1, 1⟩ fun _ => false).orient e.1 e.2.1 e.2.2 = some .positive) ∧
    Separated (1 / 100) ((exPlane ⟨4, 1, 1⟩ fun _ => false).points exRoof) ∧
    (∀ p ∈ (exPlane ⟨4, 1, 1⟩ fun _ => false).points exRoof, p.y + 10 * (1 / 100) ≤ 1) ∧
    (exPlane ⟨4, 1, 1⟩ fun _ => false).areaBelow exRoof = 5 / 2 ∧
    (((exPlane ⟨4, 1, 1⟩ fun _ => false).run exRoof).toOption.map fun m => m.mesh.triangles.length) = some 8 := by
  refine ⟨by decide +kernel, by unfold Separated; decide +kernel, by decide +kernel, by decide +kernel, by decide +kernel⟩

/-! ## C74: cutting the edges -/

/-- C74: closing the contour first adds edges on the upper side of the face that face upwards, then cuts edges.  Cutting does not change
the contour: every edge afterwards is an edge from before or a part of one, with the same normal, and the area below the edges of
each orientation is the same. -/
theorem C74_cut {P : Params K} (hP : P.Sound) (es : List (Given K)) {s s' : State K} (hc : P.collect es = .ok s) (h : P.close s = .ok s') :
    ∃ t, P.closeTop s = .ok t ∧ P.ToppedUp s.pos t.pos ∧ t.neg = s.neg ∧ t.pos.CutInto s'.pos ∧ s.neg.CutInto s'.neg := by
  obtain ⟨s0, h1, h2⟩ := collect_ok hP es
  rw [h1] at hc
  cases hc
  have gp := h2 .positive
  have gn := h2 .negative
  obtain ⟨t, t1, t2, t3, t4, t5, _⟩ := close_cut hP gp.wf gn.wf gp.holds.plain gn.holds.plain h
  exact ⟨t, t1, t2, t3, t4, t5⟩

/-- A slanted edge above two edges that face downwards. -/
def exCut : List (Given ℚ) :=
  [(⟨0, 1 / 2, 1⟩, ⟨4, 3 / 4, 1⟩, ⟨-1, 16, 0⟩), (⟨0, 1 / 4, 1⟩, ⟨1, 1 / 8, 1⟩, ⟨-1, -8, 0⟩), (⟨1, 1 / 8, 1⟩, ⟨4, 1 / 4, 1⟩, ⟨1, -24, 0⟩)]

/-- C74 is not empty: the upper edge is cut above the common vertex of the two lower ones. -/
example : (((exPlane ⟨4, 1, 1⟩ fun _ => false).collect exCut).toOption.bind fun s =>
      ((exPlane ⟨4, 1, 1⟩ fun _ => false).close s).toOption.map fun s => (s.pos.edges.map s.pos.ends, s.neg.edges.map s.neg.ends)) =
    some ([(⟨0, 1 / 2⟩, ⟨1, 9 / 16⟩), (⟨1, 9 / 16⟩, ⟨4, 3 / 4⟩)], [(⟨0, 1 / 4⟩, ⟨1, 1 / 8⟩), (⟨1, 1 / 8⟩, ⟨4, 1 / 4⟩)]) := by
  decide +kernel

/-! ## C75: the partner -/

/-- C75: the partner of an edge is the eligible edge below it whose middle is nearest; without eligible edge within the distance
limit there is no partner, and the strip reaches down to the lower side of the face. -/
theorem C75_partner {P : Params K} (hP : P.Sound) (c : Cont K) (a b n : P2 K) :
    (∀ e, P.partner c a b n = some e → e ∈ c.edges ∧ P.Eligible c a b n e ∧ c.depth a b e < P.maxd ∧
      ∀ f ∈ c.edges, P.Eligible c a b n f → c.depth a b e ≤ c.depth a b f) ∧
    (P.partner c a b n = none ↔ ∀ e ∈ c.edges, P.Eligible c a b n e → P.maxd ≤ c.depth a b e) := by
  have key := partnerLoop_spec c a b n hP.zt_pos c.edges 0 P.maxd none
  rcases key with ⟨h1, h2⟩ | ⟨j, f, h1, h2, h3, h4, h5⟩
  · have hp : P.partner c a b n = none := by unfold Params.partner; rw [h1]; rfl
    exact ⟨fun e he => by rw [hp] at he; exact absurd he (by simp), fun _ => h2, fun _ => hp⟩
  · have hp : P.partner c a b n = some f := by
      unfold Params.partner; rw [h1]; simpa using h2
    have hf := List.mem_of_getElem? h2
    refine ⟨fun e he => ?_, fun h => ?_, fun h => ?_⟩
    · rw [hp] at he
      cases he
      exact ⟨hf, h3, h4, h5⟩
    · rw [hp] at h; exact absurd h (by simp)
    · exact absurd (h f hf h3) (not_lt.2 h4.le |> fun _ => not_le.2 h4)

/-- The container of the example: two edges below the edge from (0, 1) to (1, 1). -/
def exBelow : Cont ℚ :=
  ⟨[⟨0, 0⟩, ⟨1, 0⟩, ⟨0, 1 / 2⟩, ⟨1, 1 / 2⟩], 10, .leaf, false, [⟨0, 1, ⟨0, -1⟩, [], false, false⟩, ⟨2, 3, ⟨0, -1⟩, [], false, false⟩], 10⟩

/-- C75 is not empty: the nearer one of two edges is chosen. -/
example : ((exPlane ⟨4, 1, 1⟩ fun _ => false).partner exBelow ⟨0, 1⟩ ⟨1, 1⟩ ⟨0, 1⟩).map (fun e => (e.v1, e.v2)) = some (2, 3) := by
  decide +kernel

end QuESo.Plane
