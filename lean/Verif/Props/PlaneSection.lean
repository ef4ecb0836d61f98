import Verif.Proofs.PlaneStrips
import Verif.Props.PlaneContour

/-!
# The cap of a face is the section of the solid (C73)
-/
namespace QuESo.Plane
open QuESo.AABBTree (Fault)
open QuESo.Spec
variable {K : Type} [Field K] [LinearOrder K] [IsStrictOrderedRing K]

omit [IsStrictOrderedRing K] in
/-- The closing edges are determined by the contour. -/
theorem tops_unique {P : Params K} {es : List (Given K)} {mid mid' vs vs' : List (K × Bool)} {tops tops' : List (P2 K × P2 K)}
    (h1 : P.Places es mid vs) (h2 : P.TopEdges es mid vs tops) (h1' : P.Places es mid' vs') (h2' : P.TopEdges es mid' vs' tops') : tops = tops' := by
  have hsub : ∀ {mid vs : List (K × Bool)}, P.Places es mid vs → mid.Pairwise (fun a b => a.1 < b.1) := by
    intro mid vs h
    refine h.2.1.sublist ?_
    rw [h.2.2]
    exact (List.sublist_append_right _ _).trans (List.sublist_append_left _ _)
  have hm : mid = mid' := by
    refine (h1.1.trans h1'.1.symm).eq_of_pairwise (le := fun a b => a.1 < b.1) ?_ (hsub h1) (hsub h1')
    intro a b _ _ hab hba
    exact absurd hab (not_lt.2 hba.le)
  subst hm
  have hv : vs = vs' := by rw [h1.2.2, h1'.2.2]
  subst hv
  by_cases hf : P.isEnd es P.topLeft = false ∧ P.isEnd es P.topRight = false ∧ mid = []
  · obtain ⟨y, hy, ht⟩ := h2.2 hf
    obtain ⟨y', hy', ht'⟩ := h2'.2 hf
    have hle : ∀ {y y' : K}, P.Highest es y → P.Highest es y' → y ≤ y' := by
      intro y y' h h'
      rcases h.2.2 with k | ⟨p, hp, k⟩
      · rw [k]; exact h'.1
      · rw [k]; exact h'.2.1 p hp
    have : y = y' := le_antisymm (hle hy hy') (hle hy' hy)
    subst this
    rw [ht, ht']
  · rw [h2.1 hf, h2'.1 hf]

/-- The triangles of the cap, see `C73_section` and `C73_rim`. -/
theorem section_mesh {P : Params K} (hP : P.Sound) (hsort : P.SortsTop) (hA : P.Axes) (hmax : P.up.get P.d1 - P.lo.get P.d1 + 2 * P.tol ≤ P.maxd)
    (hlu : P.lo.get P.d1 < P.up.get P.d1) (hl : -P.maxd ≤ P.lo.get P.d2) {es : List (Given K)} (hg : P.General es)
    {mid vs : List (K × Bool)} {tops : List (P2 K × P2 K)} (hpl : P.Places es mid vs) (hto : P.TopEdges es mid vs tops) {U N : List (P2 K × P2 K)}
    (hU : U = ((P.ofOrient .positive es).map fun e => P.ends e.1 e.2.1) ++ tops) (hN : N = (P.ofOrient .negative es).map fun e => P.ends e.1 e.2.1)
    (hsec : P.Section U N) (hst : ∀ e ∈ P.ofOrient .positive es, P.Steep U N (P.proj e.2.2)) (hst0 : P.Steep U N ⟨0, 1⟩) :
    ∃ m ts, P.run es = .ok m ∧ m.mesh.check = true ∧ m.mesh.visit = some ts ∧
      (∀ t ∈ ts, t.normal = P.outward ∧ t.p1.get P.d3 = P.face ∧ t.p2.get P.d3 = P.face ∧ t.p3.get P.d3 = P.face ∧
        ∃ k, 0 ≤ k ∧ triangleArea2 t.p1 t.p2 t.p3 = V3.scale k P.outward) ∧
      sumV (ts.map fun t => triangleArea2 t.p1 t.p2 t.p3) = V3.scale (2 * (P.areaOver U - P.areaOver N)) P.outward ∧
      ∀ g, EdgeQuantity g → edgeSum g ts = P.turn * ((U.map (wall (P.along g) (P.lo.get P.d2))).sum - (N.map (wall (P.along g) (P.lo.get P.d2))).sum) := by
  have htol := hP.tol_pos
  obtain ⟨m, hm⟩ := C72_general hP hsort hA hmax hlu hl hg
  obtain ⟨s, hs, hgood⟩ := collect_ok hP es
  have hrun : ∃ s', P.close s = .ok s' ∧ P.triangulate s' = .ok m := by
    unfold Params.run at hm
    rw [hs] at hm
    dsimp only at hm
    split at hm
    · exact absurd hm (by simp)
    rename_i s' hs'
    exact ⟨s', hs', hm⟩
  obtain ⟨s', hcl, htr⟩ := hrun
  have hsto := collect_stored hP hg hs
  obtain ⟨t, ht, c1, c2⟩ := C74_visible hP es hs hcl
  obtain ⟨t', ht', u1, u2, u3, u4, -⟩ := close_cut hP (hgood .positive).wf (hgood .negative).wf (hgood .positive).holds.plain
    (hgood .negative).holds.plain hcl
  rw [ht] at ht'
  cases ht'
  obtain ⟨mid', vs', tops', h1, h2, h3, h4, h5, h6, h7, h8⟩ := closeTop_spec hP hsort (by linarith) hlu hl hg hs ht
  have htops := tops_unique h1 h2 hpl hto
  subst htops
  have hU' : t.pos.edges.map t.pos.ends = U := by rw [h6, hU]
  have hN' : s.neg.edges.map s.neg.ends = N := by
    have := congrArg (List.map Prod.fst) (hsto .negative).edges
    rw [List.map_map, List.map_map] at this
    rw [hN]
    exact this
  rw [hU', hN'] at c1 c2
  -- the vertices are the ends
  have vU : ∀ p ∈ t.pos.verts, ∃ f ∈ U, p = f.1 ∨ p = f.2 := by
    intro p hp
    rcases h8 p hp with h | ⟨e, he, h⟩
    · have := ((hsto .positive).verts p).1 h
      obtain ⟨g, hg', hpg⟩ := List.mem_flatMap.1 this
      refine ⟨P.ends g.1 g.2.1, ?_, ?_⟩
      · rw [hU]; exact List.mem_append_left _ (List.mem_map_of_mem hg')
      · unfold Params.ends
        simp only [List.mem_cons, List.not_mem_nil, or_false] at hpg
        split
        · exact hpg
        · exact hpg.symm
    · exact ⟨e, by rw [hU]; exact List.mem_append_right _ he, h⟩
  have vU' : ∀ f ∈ U, f.1 ∈ t.pos.verts ∧ f.2 ∈ t.pos.verts := by
    intro f hf
    rw [← hU'] at hf
    obtain ⟨e, he, rfl⟩ := List.mem_map.1 hf
    have := h5.edges e he
    exact ⟨pt_mem this.1, pt_mem this.2⟩
  have vN : ∀ p ∈ s.neg.verts, ∃ f ∈ N, p = f.1 ∨ p = f.2 := by
    intro p hp
    have := ((hsto .negative).verts p).1 hp
    obtain ⟨g, hg', hpg⟩ := List.mem_flatMap.1 this
    refine ⟨P.ends g.1 g.2.1, ?_, ?_⟩
    · rw [hN]; exact List.mem_map_of_mem hg'
    · unfold Params.ends
      simp only [List.mem_cons, List.not_mem_nil, or_false] at hpg
      split
      · exact hpg
      · exact hpg.symm
  have vN' : ∀ f ∈ N, f.1 ∈ s.neg.verts ∧ f.2 ∈ s.neg.verts := by
    intro f hf
    rw [← hN'] at hf
    obtain ⟨e, he, rfl⟩ := List.mem_map.1 hf
    have := (hsto .negative).wf.edges e he
    exact ⟨pt_mem this.1, pt_mem this.2⟩
  obtain ⟨cutN, k1, k2⟩ := parted_of hP (layers_down hsec) (List.nodup_append.1 hsec.nodup).2.1 vU vU' c1
  obtain ⟨cutU, k3, k4⟩ := parted_of hP (layers_up hsec) (List.nodup_append.1 hsec.nodup).1 vN vN' c2
  have hsteep : ∀ e ∈ s'.pos.edges, P.Steep U N e.normal := by
    intro e he
    obtain ⟨e0, he0, hn, -⟩ := u3.edges e he
    rw [hn]
    obtain ⟨new, n1, n2⟩ := u1.edges
    rw [n1] at he0
    rcases List.mem_append.1 he0 with h | h
    · have : (s.pos.ends e0, e0.normal) ∈ (s.get .positive).edges.map fun f => ((s.get .positive).ends f, f.normal) :=
        List.mem_map.2 ⟨e0, h, rfl⟩
      rw [(hsto .positive).edges] at this
      obtain ⟨g, hg', hge⟩ := List.mem_map.1 this
      have : P.proj g.2.2 = e0.normal := congrArg Prod.snd hge
      rw [← this]
      exact hst g hg'
    · rw [(n2 e0 h).2.1]
      exact hst0
  have R : P.Ready U N cutU cutN t.pos.verts s.neg.verts s' := ⟨hsec, k3, k1, k4, k2, hsteep⟩
  obtain ⟨w1, strips, w2, w3⟩ := triangulate_spec hA htr
  refine ⟨m, strips.flatten, hm, w1, w3, ?_, ?_, ?_⟩
  · intro x hx
    obtain ⟨ts, hts, hxt⟩ := List.mem_flatten.1 hx
    obtain ⟨i, hi, rfl⟩ := List.mem_iff_getElem.1 hts
    have hlen := w2.length_eq
    have hst := List.forall₂_iff_get.1 w2
    have hsi := hst.2 i (by omega) hi
    simp only [List.get_eq_getElem] at hsi
    have hup := (strip_cases hP R (List.getElem_mem (by omega : i < s'.pos.edges.length))).1
    exact ⟨hsi.normal x hxt, (hsi.plane x hxt).1, (hsi.plane x hxt).2.1, (hsi.plane x hxt).2.2, hsi.facing hup x hxt⟩
  · rw [strips_area w2, strips_section hP R]
  · intro g hg
    rw [strips_edges hg w2, ← strips_wall hP R (quantity_along hA hg)]

/-- C73: let `U` be the edges that face up, together with the closed parts of the upper side, and `N` those that face down.  If they bound
a region of the face, then the cap is this region: the mesh is valid, its triangles lie in the face, all point outwards, and
their area is the area between `U` and the lower side minus the area between `N` and the lower side. -/
theorem C73_section {P : Params K} (hP : P.Sound) (hsort : P.SortsTop) (hA : P.Axes) (hmax : P.up.get P.d1 - P.lo.get P.d1 + 2 * P.tol ≤ P.maxd)
    (hlu : P.lo.get P.d1 < P.up.get P.d1) (hl : -P.maxd ≤ P.lo.get P.d2) {es : List (Given K)} (hg : P.General es)
    {mid vs : List (K × Bool)} {tops : List (P2 K × P2 K)} (hpl : P.Places es mid vs) (hto : P.TopEdges es mid vs tops) {U N : List (P2 K × P2 K)}
    (hU : U = ((P.ofOrient .positive es).map fun e => P.ends e.1 e.2.1) ++ tops) (hN : N = (P.ofOrient .negative es).map fun e => P.ends e.1 e.2.1)
    (hsec : P.Section U N) (hst : ∀ e ∈ P.ofOrient .positive es, P.Steep U N (P.proj e.2.2)) (hst0 : P.Steep U N ⟨0, 1⟩) :
    ∃ m ts, P.run es = .ok m ∧ m.mesh.check = true ∧ m.mesh.visit = some ts ∧
      (∀ t ∈ ts, t.normal = P.outward ∧ t.p1.get P.d3 = P.face ∧ t.p2.get P.d3 = P.face ∧ t.p3.get P.d3 = P.face ∧
        ∃ k, 0 ≤ k ∧ triangleArea2 t.p1 t.p2 t.p3 = V3.scale k P.outward) ∧
      sumV (ts.map fun t => triangleArea2 t.p1 t.p2 t.p3) = V3.scale (2 * (P.areaOver U - P.areaOver N)) P.outward := by
  obtain ⟨m, ts, h1, h2, h3, h4, h5, -⟩ := section_mesh hP hsort hA hmax hlu hl hg hpl hto hU hN hsec hst hst0
  exact ⟨m, ts, h1, h2, h3, h4, h5⟩

/-- C73: in the same situation the rim of the cap consists of the edges in `U` and `N` and of the lower side: whatever is measured along
edges, the sum over the edges of the triangles is the sum over the ways that lead, for every edge of `U`, from its first end down to the
lower side, along it and up to its second end and back along the edge, minus the same for `N`; all run around the face in the direction
that belongs to its outward normal. -/
theorem C73_rim {P : Params K} (hP : P.Sound) (hsort : P.SortsTop) (hA : P.Axes) (hmax : P.up.get P.d1 - P.lo.get P.d1 + 2 * P.tol ≤ P.maxd)
    (hlu : P.lo.get P.d1 < P.up.get P.d1) (hl : -P.maxd ≤ P.lo.get P.d2) {es : List (Given K)} (hg : P.General es)
    {mid vs : List (K × Bool)} {tops : List (P2 K × P2 K)} (hpl : P.Places es mid vs) (hto : P.TopEdges es mid vs tops) {U N : List (P2 K × P2 K)}
    (hU : U = ((P.ofOrient .positive es).map fun e => P.ends e.1 e.2.1) ++ tops) (hN : N = (P.ofOrient .negative es).map fun e => P.ends e.1 e.2.1)
    (hsec : P.Section U N) (hst : ∀ e ∈ P.ofOrient .positive es, P.Steep U N (P.proj e.2.2)) (hst0 : P.Steep U N ⟨0, 1⟩) :
    ∃ m ts, P.run es = .ok m ∧ m.mesh.visit = some ts ∧ ∀ g, EdgeQuantity g →
      edgeSum g ts = P.turn * ((U.map (wall (P.along g) (P.lo.get P.d2))).sum - (N.map (wall (P.along g) (P.lo.get P.d2))).sum) := by
  obtain ⟨m, ts, h1, -, h2, -, -, h3⟩ := section_mesh hP hsort hA hmax hlu hl hg hpl hto hU hN hsec hst hst0
  exact ⟨m, ts, h1, h2, h3⟩

/-! ### Example -/

/-- A solid that fills the cell up to a window. -/
def exHole : List (Given ℚ) :=
  [(⟨1, 1 / 4, 1⟩, ⟨3, 1 / 4, 1⟩, ⟨0, 1, 0⟩), (⟨1, 3 / 4, 1⟩, ⟨3, 3 / 4, 1⟩, ⟨0, -1, 0⟩), (⟨1, 1 / 4, 1⟩, ⟨1, 3 / 4, 1⟩, ⟨1, 0, 0⟩),
   (⟨3, 1 / 4, 1⟩, ⟨3, 3 / 4, 1⟩, ⟨-1, 0, 0⟩)]

theorem exHole_general : (exPlane ⟨4, 1, 1⟩ fun _ => true).General exHole where
  separated := by unfold Separated; decide +kernel
  within := by decide +kernel
  top := by decide +kernel
  normal := by decide +kernel
  vertical := by decide +kernel
  distinct := by intro o; cases o <;> decide +kernel

/-- The edges of the window and the upper side. -/
def exUp : List (P2 ℚ × P2 ℚ) := [(⟨1, 1 / 4⟩, ⟨3, 1 / 4⟩), (⟨0, 1⟩, ⟨4, 1⟩)]
/-- See `exUp`. -/
def exDown : List (P2 ℚ × P2 ℚ) := [(⟨1, 3 / 4⟩, ⟨3, 3 / 4⟩)]

theorem exHole_edges : exUp = (((exPlane ⟨4, 1, 1⟩ fun _ => true).ofOrient .positive exHole).map fun e =>
      (exPlane ⟨4, 1, 1⟩ fun _ => true).ends e.1 e.2.1) ++ [(⟨0, 1⟩, ⟨4, 1⟩)] ∧
    exDown = ((exPlane ⟨4, 1, 1⟩ fun _ => true).ofOrient .negative exHole).map fun e => (exPlane ⟨4, 1, 1⟩ fun _ => true).ends e.1 e.2.1 := by
  refine ⟨by decide +kernel, by decide +kernel⟩

theorem exHole_height : ∀ e ∈ exUp ++ exDown, ∀ x, heightOver e x = e.1.y := by
  intro e he x
  simp only [exUp, exDown, List.cons_append, List.nil_append, List.mem_cons, List.not_mem_nil, or_false] at he
  rcases he with rfl | rfl | rfl <;> simp [heightOver]

theorem exHole_section : (exPlane ⟨4, 1, 1⟩ fun _ => true).Section exUp exDown where
  nodup := by decide +kernel
  right := by decide +kernel
  low := by decide +kernel
  apart := by decide +kernel
  order := by
    intro e he f hf _ x y _ _ _ _ h
    rw [exHole_height e he, exHole_height f hf] at h ⊢
    exact h.le
  differ := by
    intro e he f hf hne x _ _ _
    rw [exHole_height e he, exHole_height f hf]
    have : ∀ e ∈ exUp ++ exDown, ∀ f ∈ exUp ++ exDown, e ≠ f → e.1.y ≠ f.1.y := by decide +kernel
    exact this e he f hf hne
  clear := by
    intro e he f hf hne x _ _ _
    rw [exHole_height e he, exHole_height f hf]
    have : ∀ e ∈ exUp ++ exDown, ∀ f ∈ exUp ++ exDown, e ≠ f → (exPlane ⟨4, 1, 1⟩ fun _ => true).tol + (exPlane ⟨4, 1, 1⟩ fun _ => true).zt <
      |e.1.y - f.1.y| := by decide +kernel
    exact this e he f hf hne
  ends := by
    intro e he f hf x _ _ _
    rw [exHole_height e (List.mem_append_left _ he), exHole_height f (List.mem_append_right _ hf)]
    have : ∀ e ∈ exUp, ∀ f ∈ exDown, e.1.y = f.1.y ∨ (exPlane ⟨4, 1, 1⟩ fun _ => true).tol ≤ |e.1.y - f.1.y| := by decide +kernel
    exact this e he f hf
  limit := by
    intro e he f hf x _ _
    rw [exHole_height e (List.mem_append_left _ he), exHole_height f (List.mem_append_right _ hf)]
    have : ∀ e ∈ exUp, ∀ f ∈ exDown, |e.1.y - f.1.y| + (exPlane ⟨4, 1, 1⟩ fun _ => true).zt < 10 ^ 15 ∧
      |e.1.y - f.1.y| < (exPlane ⟨4, 1, 1⟩ fun _ => true).maxd := by decide +kernel
    exact this e he f hf
  above := by
    intro f hf x _ hc
    refine ⟨(⟨0, 1⟩, ⟨4, 1⟩), by decide +kernel, ?_, ?_⟩
    · simp only [exDown, List.mem_singleton] at hf
      subst hf
      unfold covers at hc ⊢
      dsimp only at hc ⊢
      constructor <;> linarith [hc.1, hc.2]
    · rw [exHole_height f (List.mem_append_right _ hf), exHole_height _ (by decide +kernel)]
      have : ∀ f ∈ exDown, f.1.y < (1 : ℚ) := by decide +kernel
      exact this f hf
  betweenUp := by
    intro e he g hg x _ hce hcg h
    rw [exHole_height e (List.mem_append_left _ he), exHole_height g (List.mem_append_left _ hg)] at *
    refine ⟨(⟨1, 3 / 4⟩, ⟨3, 3 / 4⟩), by decide +kernel, ?_, ?_⟩
    · simp only [exUp, List.mem_cons, List.not_mem_nil, or_false] at he hg
      unfold covers at hce hcg ⊢
      rcases he with rfl | rfl <;> rcases hg with rfl | rfl <;> dsimp only at hce hcg h ⊢
      · exact hce
      · exact hce
      · exact hcg
      · exact absurd h (lt_irrefl _)
    · rw [exHole_height _ (by decide +kernel : ((⟨1, 3 / 4⟩, ⟨3, 3 / 4⟩) : P2 ℚ × P2 ℚ) ∈ exUp ++ exDown)]
      have : ∀ e ∈ exUp, ∀ g ∈ exUp, g.1.y < e.1.y → g.1.y < (3 / 4 : ℚ) ∧ 3 / 4 < e.1.y := by decide +kernel
      exact this e he g hg h
  betweenDown := by
    intro e he g hg x _ _ _ h
    simp only [exDown, List.mem_singleton] at he hg
    rw [he, hg] at h
    exact absurd h (lt_irrefl _)

theorem exHole_steep : (exPlane ⟨4, 1, 1⟩ fun _ => true).Steep exUp exDown ⟨0, 1⟩ := by
  refine ⟨by decide +kernel, ?_⟩
  intro e he f hf x _ y _ _ _ _ _ _
  rw [exHole_height e (List.mem_append_left _ he), exHole_height f (List.mem_append_right _ hf)]
  have : ∀ e ∈ exUp, ∀ f ∈ exDown, (exPlane ⟨4, 1, 1⟩ fun _ => true).zt < |e.1.y - f.1.y| * (⟨0, 1⟩ : P2 ℚ).y := by decide +kernel
  exact this e he f hf

/-- C73 is not empty: the cap of the cell with a window has area 3. -/
example : ∃ m ts, (exPlane ⟨4, 1, 1⟩ fun _ => true).run exHole = .ok m ∧ m.mesh.visit = some ts ∧
    sumV (ts.map fun t => triangleArea2 t.p1 t.p2 t.p3) = ⟨0, 0, 2 * 3⟩ := by
  have hpl : (exPlane ⟨4, 1, 1⟩ fun _ => true).Places exHole [] [(0, true), (4, false)] := ⟨by decide +kernel, by decide +kernel, by decide +kernel⟩
  have hto : (exPlane ⟨4, 1, 1⟩ fun _ => true).TopEdges exHole [] [(0, true), (4, false)] [(⟨0, 1⟩, ⟨4, 1⟩)] := by
    refine ⟨fun h => absurd ⟨by decide +kernel, by decide +kernel, rfl⟩ h, fun _ => ⟨3 / 4, ⟨by decide +kernel, ?_, Or.inr ⟨⟨1, 3 / 4⟩, Or.inr (by decide +kernel), rfl⟩⟩,
      by decide +kernel⟩⟩
    intro p hp
    have h1 : ∀ p ∈ (exPlane ⟨4, 1, 1⟩ fun _ => true).points ((exPlane ⟨4, 1, 1⟩ fun _ => true).ofOrient .positive exHole), p.y ≤ 3 / 4 := by decide +kernel
    have h2 : ∀ p ∈ (exPlane ⟨4, 1, 1⟩ fun _ => true).points ((exPlane ⟨4, 1, 1⟩ fun _ => true).ofOrient .negative exHole), p.y ≤ 3 / 4 := by decide +kernel
    rcases hp with hp | hp
    · exact h1 p hp
    · exact h2 p hp
  obtain ⟨m, ts, h1, -, h2, -, h3⟩ := C73_section (exPlane_sound ⟨4, 1, 1⟩ fun _ => true) (exPlane_sortsTop _ _) (exPlane_axes _ _) (by decide +kernel)
    (by decide +kernel) (by decide +kernel) exHole_general hpl hto exHole_edges.1 exHole_edges.2 exHole_section (by
      have hn : ∀ e ∈ (exPlane ⟨4, 1, 1⟩ fun _ => true).ofOrient .positive exHole, (exPlane ⟨4, 1, 1⟩ fun _ => true).proj e.2.2 = ⟨0, 1⟩ := by decide +kernel
      intro e he
      rw [hn e he]
      exact exHole_steep) exHole_steep
  refine ⟨m, ts, h1, h2, ?_⟩
  rw [h3]
  decide +kernel

end QuESo.Plane
