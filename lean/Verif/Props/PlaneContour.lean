import Verif.Proofs.PlaneTop
import Verif.Props.PlaneDomain

/-!
# Properties of the contour in a face of a cell: where edges are cut, and the upper side (C72, C74, C78)
-/
namespace QuESo.Plane
open QuESo.AABBTree (Fault)
open QuESo.Spec
variable {K : Type} [Field K] [LinearOrder K] [IsStrictOrderedRing K]

/-! ## C74: where edges are cut -/

/-- C74: an edge that faces down is cut below exactly those vertices of the edges that face up from which it is seen, i.e. it is the
nearest edge below the vertex that is not hidden by an edge that faces up; and vice versa. -/
theorem C74_visible {P : Params K} (hP : P.Sound) (es : List (Given K)) {s s' : State K} (hc : P.collect es = .ok s) (h : P.close s = .ok s') :
    ∃ t, P.closeTop s = .ok t ∧
      P.CutWhereSeen false t.pos.verts (t.pos.edges.map t.pos.ends) (s.neg.edges.map s.neg.ends) (s'.neg.edges.map s'.neg.ends) ∧
      P.CutWhereSeen true s.neg.verts (s.neg.edges.map s.neg.ends) (t.pos.edges.map t.pos.ends) (s'.pos.edges.map s'.pos.ends) := by
  obtain ⟨s0, h1, h2⟩ := collect_ok hP es
  rw [h1] at hc
  cases hc
  have gp := h2 .positive
  have gn := h2 .negative
  exact close_seen hP gp.wf gn.wf gp.holds.plain gn.holds.plain h

/-- C74 is not empty: the upper edge is cut above the common vertex of the two lower ones, the lower ones are not. -/
example : (((exPlane ⟨4, 1, 1⟩ fun _ => false).collect exCut).toOption.bind fun s => ((exPlane ⟨4, 1, 1⟩ fun _ => false).close s).toOption.map
      fun s' => (s'.pos.edges.map s'.pos.ends, s'.neg.edges.map s'.neg.ends)) =
    some ([(⟨0, 1 / 2⟩, ⟨1, 9 / 16⟩), (⟨1, 9 / 16⟩, ⟨4, 3 / 4⟩)], [(⟨0, 1 / 4⟩, ⟨1, 1 / 8⟩), (⟨1, 1 / 8⟩, ⟨4, 1 / 4⟩)]) := by
  decide +kernel

/-! ## C78: the upper side -/

/-- C72 for edges in general position: the cap of the face is computed without use of moved memory, without endless loop and without
error. -/
theorem C72_general {P : Params K} (hP : P.Sound) (hsort : P.SortsTop) (hA : P.Axes) (hmax : P.up.get P.d1 - P.lo.get P.d1 + 2 * P.tol ≤ P.maxd)
    (hlu : P.lo.get P.d1 < P.up.get P.d1) (hl : -P.maxd ≤ P.lo.get P.d2) {es : List (Given K)} (hg : P.General es) :
    ∃ m, P.run es = .ok m := by
  have htol := hP.tol_pos
  by_cases hall : ∀ e ∈ es, P.orient e.1 e.2.1 e.2.2 = some .positive
  · obtain ⟨s, hs, hgood⟩ := collect_ok hP es
    obtain ⟨t, ht⟩ := closeTop_general hP hsort (by linarith) hlu hg hs hall
    obtain ⟨mid, vs, tops, h1, h2, h3, h4, h5, h6, h7, -⟩ := closeTop_spec hP hsort (by linarith) hlu hl hg hs ht
    have hno : P.ofOrient .negative es = [] := by
      unfold Params.ofOrient
      rw [List.filter_eq_nil_iff]
      intro e he
      simp [hall e he]
    have gn := hgood .negative
    rw [hno] at gn
    obtain ⟨n1, n2⟩ := cont_of_no_edges gn
    have hn1 : t.neg.edges = [] := by rw [h3]; exact n1
    have hn2 : t.neg.verts = [] := by rw [h3]; exact n2
    have hcl := close_noNegative ht h5 hn1 hn2 h7
    obtain ⟨m, ts, k1, -⟩ := triangulate_noNegative hA h5 (by rw [h3]; exact gn.wf) hn1
    refine ⟨m, ?_⟩
    unfold Params.run
    rw [hs]
    dsimp only
    rw [hcl]
    exact k1
  · push Not at hall
    refine C72_safe_partial hP es ?_ hmax hlu.le (Or.inl hall)
    intro p hp
    have := hg.within p hp
    constructor <;> linarith [this.1, this.2.1]

/-- C78: for edges in general position the contour is closed on the upper side by the parts of the side between a place where the solid
begins and the next place, if the solid ends there.  The places are those where edges of one orientation only meet the side, and the
corners of the face unless they are ends of edges.  If there are no places but the corners, a point above all edges decides whether
the whole side is closed. -/
theorem C78_upper_side {P : Params K} (hP : P.Sound) (hsort : P.SortsTop) (hA : P.Axes) (hmax : P.up.get P.d1 - P.lo.get P.d1 + 2 * P.tol ≤ P.maxd)
    (hlu : P.lo.get P.d1 < P.up.get P.d1) (hl : -P.maxd ≤ P.lo.get P.d2) {es : List (Given K)} (hg : P.General es) :
    ∃ s t mid vs tops, P.collect es = .ok s ∧ P.closeTop s = .ok t ∧ P.Places es mid vs ∧ P.TopEdges es mid vs tops ∧
      t.pos.edges.map t.pos.ends = ((P.ofOrient .positive es).map fun e => P.ends e.1 e.2.1) ++ tops ∧
      t.neg.edges.map t.neg.ends = (P.ofOrient .negative es).map fun e => P.ends e.1 e.2.1 := by
  have htol := hP.tol_pos
  obtain ⟨m, hm⟩ := C72_general hP hsort hA hmax hlu hl hg
  obtain ⟨s, hs, hgood⟩ := collect_ok hP es
  have hcl : ∃ t, P.closeTop s = .ok t := by
    unfold Params.run at hm
    rw [hs] at hm
    dsimp only at hm
    split at hm
    · exact absurd hm (by simp)
    rename_i s' hs'
    unfold Params.close at hs'
    split at hs'
    · exact absurd hs' (by simp)
    rename_i t ht
    exact ⟨t, ht⟩
  obtain ⟨t, ht⟩ := hcl
  obtain ⟨mid, vs, tops, h1, h2, h3, h4, h5, h6, h7, -⟩ := closeTop_spec hP hsort (by linarith) hlu hl hg hs ht
  refine ⟨s, t, mid, vs, tops, hs, ht, h1, h2, h6, ?_⟩
  have := congrArg (List.map Prod.fst) (collect_stored hP hg hs .negative).edges
  rw [List.map_map, List.map_map] at this
  rw [h3]
  exact this

/-- C78: if no edge faces down, then the cap is the region below the edges that face up and the closed parts of the upper side: the mesh
is valid, its triangles lie in the face and point outwards, and its area is that of the region. -/
theorem C78_area {P : Params K} (hP : P.Sound) (hsort : P.SortsTop) (hA : P.Axes) (hmax : P.up.get P.d1 - P.lo.get P.d1 + 2 * P.tol ≤ P.maxd)
    (hlu : P.lo.get P.d1 < P.up.get P.d1) (hl : -P.maxd ≤ P.lo.get P.d2) (hh : P.lo.get P.d2 ≤ P.up.get P.d2) {es : List (Given K)}
    (hg : P.General es) (hn : ∀ e ∈ es, P.orient e.1 e.2.1 e.2.2 ≠ some .negative) :
    ∃ m ts mid vs tops, P.run es = .ok m ∧ m.mesh.check = true ∧ m.mesh.visit = some ts ∧ P.Places es mid vs ∧ P.TopEdges es mid vs tops ∧
      (∀ t ∈ ts, t.normal = P.outward ∧ t.p1.get P.d3 = P.face ∧ t.p2.get P.d3 = P.face ∧ t.p3.get P.d3 = P.face) ∧
      sumV (ts.map fun t => triangleArea2 t.p1 t.p2 t.p3) = V3.scale (2 * (P.areaBelow (P.ofOrient .positive es) +
        (tops.map fun e => (e.2.x - e.1.x) * (P.up.get P.d2 - P.lo.get P.d2)).sum)) P.outward ∧
      ((∀ p ∈ P.points es, P.lo.get P.d2 ≤ p.y) → ∀ t ∈ ts, ∃ k, 0 ≤ k ∧ triangleArea2 t.p1 t.p2 t.p3 = V3.scale k P.outward) := by
  have htol := hP.tol_pos
  obtain ⟨s, t, mid, vs, tops, hs, ht, h1, h2, h6, -⟩ := C78_upper_side hP hsort hA hmax hlu hl hg
  obtain ⟨mid', vs', tops', h1', h2', h3, h4, h5, h6', h7, -⟩ := closeTop_spec hP hsort (by linarith) hlu hl hg hs ht
  have hno : P.ofOrient .negative es = [] := by
    unfold Params.ofOrient
    rw [List.filter_eq_nil_iff]
    intro e he
    simp [hn e he]
  obtain ⟨s0, hs0, hgood⟩ := collect_ok hP es
  rw [hs] at hs0
  cases hs0
  have gn := hgood .negative
  rw [hno] at gn
  obtain ⟨n1, n2⟩ := cont_of_no_edges gn
  have hn1 : t.neg.edges = [] := by rw [h3]; exact n1
  have hn2 : t.neg.verts = [] := by rw [h3]; exact n2
  have hcl := close_noNegative ht h5 hn1 hn2 h7
  obtain ⟨m, ts, k1, k2, k3, k4, k5, k6, k7⟩ := triangulate_noNegative hA h5 (by rw [h3]; exact gn.wf) hn1
  have htops : ∀ e ∈ tops, e.1.x ≤ e.2.x ∧ e.1.y = P.up.get P.d2 ∧ e.2.y = P.up.get P.d2 := by
    have hcov := covered_rising (P := P) h1.2.1
    rcases h2 with ⟨ha, hb⟩
    by_cases hf : P.isEnd es P.topLeft = false ∧ P.isEnd es P.topRight = false ∧ mid = []
    · obtain ⟨y, -, hy⟩ := hb hf
      rw [hy]
      split
      · exact hcov
      · simp
    · rw [ha hf]; exact hcov
  refine ⟨m, ts, mid, vs, tops, ?_, k2, k3, h1, h2, k4, ?_, ?_⟩
  · unfold Params.run
    rw [hs]
    dsimp only
    rw [hcl]
    exact k1
  · rw [k5]
    congr 2
    have := congrArg (List.map fun e : P2 K × P2 K => under e - P.lo.get P.d2 * (e.2.x - e.1.x)) h6
    rw [List.map_map, List.map_append, List.map_map] at this
    have h8 := congrArg List.sum this
    rw [List.sum_append] at h8
    refine Eq.trans h8 ?_
    unfold Params.areaBelow
    congr 1
    refine congrArg List.sum (List.map_congr_left ?_)
    intro e he
    obtain ⟨-, e1, e2⟩ := htops e he
    unfold under
    rw [e1, e2]
    ring
  · intro hlow
    apply k6
    intro e he
    have hmem : t.pos.ends e ∈ t.pos.edges.map t.pos.ends := List.mem_map_of_mem he
    rw [h6] at hmem
    rcases List.mem_append.1 hmem with hm | hm
    · obtain ⟨g, hgm, hge⟩ := List.mem_map.1 hm
      have hx := ends_le P g.1 g.2.1
      have hp := ends_points (P := P) (List.mem_of_mem_filter hgm)
      have y1 := hlow _ hp.1
      have y2 := hlow _ hp.2
      rw [hge] at hx y1 y2
      exact ⟨hx, y1, y2⟩
    · obtain ⟨e0, e1, e2⟩ := htops _ hm
      refine ⟨e0, ?_, ?_⟩
      · show P.lo.get P.d2 ≤ (t.pos.ends e).1.y
        rw [e1]; exact hh
      · show P.lo.get P.d2 ≤ (t.pos.ends e).2.y
        rw [e2]; exact hh

/-! ### Examples -/

theorem exPlane_sortsTop (up : V3 ℚ) (inside : V3 ℚ → Bool) : (exPlane up inside).SortsTop := by
  intro vs es _
  exact List.pairwise_insertionSort _ _

/-- A solid that leaves the cell through the upper side, between 1 and 3. -/
def exChimney : List (Given ℚ) :=
  [(⟨0, 1 / 4, 1⟩, ⟨1, 1, 1⟩, ⟨-3, 4, 0⟩), (⟨3, 1, 1⟩, ⟨4, 1 / 4, 1⟩, ⟨3, 4, 0⟩)]

theorem exChimney_general : (exPlane ⟨4, 1, 1⟩ fun _ => false).General exChimney where
  separated := by unfold Separated; decide +kernel
  within := by decide +kernel
  top := by decide +kernel
  normal := by decide +kernel
  vertical := by decide +kernel
  distinct := by intro o; cases o <;> decide +kernel

/-- C78 is not empty: the places of the chimney, the closed part of the upper side, and the area. -/
example : (exPlane ⟨4, 1, 1⟩ fun _ => false).Places exChimney [(1, true), (3, false)] [(0, true), (1, true), (3, false), (4, false)] ∧
    (exPlane ⟨4, 1, 1⟩ fun _ => false).TopEdges exChimney [(1, true), (3, false)] [(0, true), (1, true), (3, false), (4, false)] [(⟨1, 1⟩, ⟨3, 1⟩)] ∧
    (exPlane ⟨4, 1, 1⟩ fun _ => false).areaBelow exChimney + (3 - 1) * 1 = 13 / 4 ∧
    (((exPlane ⟨4, 1, 1⟩ fun _ => false).run exChimney).toOption.map fun m => m.mesh.triangles.length) = some 12 := by
  refine ⟨⟨by decide +kernel, by decide +kernel, by decide +kernel⟩, ⟨fun _ => by decide +kernel, ?_⟩, by decide +kernel, by decide +kernel⟩
  rintro ⟨-, -, h⟩
  exact absurd h (by simp)

/-- A solid whose highest point is a tip on the upper side, between an edge that faces up and a vertical one. -/
def exTip : List (Given ℚ) :=
  [(⟨0, 1 / 4, 1⟩, ⟨1, 1, 1⟩, ⟨-3, 4, 0⟩), (⟨1, 1, 1⟩, ⟨1, 1 / 4, 1⟩, ⟨1, 0, 0⟩)]

/-- C78 is not empty: two edges of different orientation meet the upper side in the tip, which is no place then. -/
example : (exPlane ⟨4, 1, 1⟩ fun _ => false).General exTip ∧
    (exPlane ⟨4, 1, 1⟩ fun _ => false).crossings .positive exTip = [(1, true)] ∧
    (exPlane ⟨4, 1, 1⟩ fun _ => false).crossings .vertical exTip = [(1, false)] ∧
    (exPlane ⟨4, 1, 1⟩ fun _ => false).Places exTip [] [(0, true), (4, false)] ∧
    (exPlane ⟨4, 1, 1⟩ fun _ => false).TopEdges exTip [] [(0, true), (4, false)] [] := by
  refine ⟨⟨by unfold Separated; decide +kernel, by decide +kernel, by decide +kernel, by decide +kernel, by decide +kernel,
    by intro o; cases o <;> decide +kernel⟩, by decide +kernel, by decide +kernel, ⟨by decide +kernel, by decide +kernel, by decide +kernel⟩, ?_, ?_⟩
  · intro h
    exact absurd ⟨by decide +kernel, by decide +kernel, rfl⟩ h
  · intro _
    exact ⟨1, ⟨by decide +kernel, by
      intro p hp
      have h1 : ∀ p ∈ (exPlane ⟨4, 1, 1⟩ fun _ => false).points ((exPlane ⟨4, 1, 1⟩ fun _ => false).ofOrient .positive exTip), p.y ≤ 1 := by decide +kernel
      have h2 : ∀ p ∈ (exPlane ⟨4, 1, 1⟩ fun _ => false).points ((exPlane ⟨4, 1, 1⟩ fun _ => false).ofOrient .negative exTip), p.y ≤ 1 := by decide +kernel
      rcases hp with hp | hp
      · exact h1 p hp
      · exact h2 p hp, Or.inr ⟨⟨1, 1⟩, Or.inl (by decide +kernel), rfl⟩⟩, by decide +kernel⟩

/-- Three edges that meet in one point of the upper side: the solid is below the first one and above the last one, hence the upper side
belongs to it from 1 to 4, and not from 0 to 1. -/
def exPinch : List (Given ℚ) :=
  [(⟨0, 1 / 4, 1⟩, ⟨1, 1, 1⟩, ⟨-3, 4, 0⟩), (⟨1, 1, 1⟩, ⟨1, 1 / 4, 1⟩, ⟨1, 0, 0⟩), (⟨1, 1, 1⟩, ⟨4, 1 / 4, 1⟩, ⟨-1, -4, 0⟩)]

/-- C78 is false if edges of all three orientations meet the upper side in one point, where the solid begins: the code skips the point,
and closes the whole side or nothing, whatever the inside test says.  Right would be the part from 1 to 4. -/
theorem C78_three_false_of_code (inside : V3 ℚ → Bool) : (exPlane ⟨4, 1, 1⟩ inside).General exPinch ∧
    ∃ s t tops, (exPlane ⟨4, 1, 1⟩ inside).collect exPinch = .ok s ∧ (exPlane ⟨4, 1, 1⟩ inside).closeTop s = .ok t ∧
      t.pos.edges.map t.pos.ends = [(⟨0, 1 / 4⟩, ⟨1, 1⟩)] ++ tops ∧ (tops = [] ∨ tops = [(⟨0, 1⟩, ⟨4, 1⟩)]) := by
  have hf : (exPlane ⟨4, 1, 1⟩ fun _ => false).General exPinch := ⟨by unfold Separated; decide +kernel, by decide +kernel, by decide +kernel,
    by decide +kernel, by decide +kernel, by intro o; cases o <;> decide +kernel⟩
  have hg : (exPlane ⟨4, 1, 1⟩ inside).General exPinch := ⟨hf.separated, hf.within, hf.top, hf.normal, hf.vertical, hf.distinct⟩
  have hs : single ((exPlane ⟨4, 1, 1⟩ fun _ => false).crossings .positive exPinch) ((exPlane ⟨4, 1, 1⟩ fun _ => false).crossings .negative exPinch)
      ((exPlane ⟨4, 1, 1⟩ fun _ => false).crossings .vertical exPinch) = [] := by decide +kernel
  have e1 : (exPlane ⟨4, 1, 1⟩ fun _ => false).isEnd exPinch (exPlane ⟨4, 1, 1⟩ fun _ => false).topLeft = false := by decide +kernel
  have e2 : (exPlane ⟨4, 1, 1⟩ fun _ => false).isEnd exPinch (exPlane ⟨4, 1, 1⟩ fun _ => false).topRight = false := by decide +kernel
  have hp : ((exPlane ⟨4, 1, 1⟩ fun _ => false).ofOrient .positive exPinch).map (fun e => (exPlane ⟨4, 1, 1⟩ fun _ => false).ends e.1 e.2.1) =
      [(⟨0, 1 / 4⟩, ⟨1, 1⟩)] := by decide +kernel
  have hm1 : (exPlane ⟨4, 1, 1⟩ fun _ => false).up.get (exPlane ⟨4, 1, 1⟩ fun _ => false).d1 -
      (exPlane ⟨4, 1, 1⟩ fun _ => false).lo.get (exPlane ⟨4, 1, 1⟩ fun _ => false).d1 + 2 * (exPlane ⟨4, 1, 1⟩ fun _ => false).tol ≤
      (exPlane ⟨4, 1, 1⟩ fun _ => false).maxd := by decide +kernel
  have hm2 : (exPlane ⟨4, 1, 1⟩ fun _ => false).lo.get (exPlane ⟨4, 1, 1⟩ fun _ => false).d1 <
      (exPlane ⟨4, 1, 1⟩ fun _ => false).up.get (exPlane ⟨4, 1, 1⟩ fun _ => false).d1 := by decide +kernel
  have hm3 : -(exPlane ⟨4, 1, 1⟩ fun _ => false).maxd ≤
      (exPlane ⟨4, 1, 1⟩ fun _ => false).lo.get (exPlane ⟨4, 1, 1⟩ fun _ => false).d2 := by decide +kernel
  refine ⟨hg, ?_⟩
  obtain ⟨s, t, mid, vs, tops, h1, h2, h3, h4, h5, -⟩ := C78_upper_side (exPlane_sound ⟨4, 1, 1⟩ inside) (exPlane_sortsTop _ _)
    (exPlane_axes _ _) hm1 hm2 hm3 hg
  refine ⟨s, t, tops, h1, h2, ?_, ?_⟩
  · rw [h5]
    exact congrArg (· ++ tops) hp
  · obtain ⟨p1, p2, p3⟩ := h3
    have hm := (p1.trans (List.Perm.of_eq hs)).eq_nil
    subst hm
    have e1' : (exPlane ⟨4, 1, 1⟩ inside).isEnd exPinch (exPlane ⟨4, 1, 1⟩ inside).topLeft = false := e1
    have e2' : (exPlane ⟨4, 1, 1⟩ inside).isEnd exPinch (exPlane ⟨4, 1, 1⟩ inside).topRight = false := e2
    rw [e1', e2'] at p3
    obtain ⟨y, -, hy⟩ := h4.2 ⟨e1, e2, rfl⟩
    rw [hy]
    split
    · right
      rw [p3]
      rfl
    · left; rfl

end QuESo.Plane
