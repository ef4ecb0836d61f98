import Verif.Proofs.CellRim
import Verif.Proofs.ClipRecords
import Verif.Props.TrimmedSection
import Verif.Props.ClipBoundary

/-!
# C103: the closed boundary of a trimmed cell is closed
-/
namespace QuESo.Domain
open QuESo.AABBTree (Fault Node)
open QuESo.Spec QuESo.Clip QuESo.GQ
variable {K : Type} [Field K] [LinearOrder K] [IsStrictOrderedRing K]

/-- The closed boundary consists of the clipped surface and the caps; each cap has the property that is known for the cap of its face. -/
theorem build_of_each {E : Env K} (hE : E.Sound) {clipped : ClippedMesh K} {lo up : V3 K} (hok : EdgesOk E.zt lo up clipped)
    (hcne : clipped.mesh.triangles ≠ []) {ts : List (Tri K)} (h1 : clipped.mesh.visit = some ts) (n : Nat) {switch : Bool} {Φ : Nat × Bool → List (Tri K) → Prop}
    (one : ∀ f ∈ sixFaces, ∃ c cap, E.cap clipped lo up switch f.1 f.2 = .ok c ∧ c.check = true ∧ c.visit = some cap ∧ Φ f cap) :
    ∃ closed caps ts', E.build clipped lo up n switch = .ok closed ∧ closed.check = true ∧ closed.visit = some ts' ∧
      RefinementOf (ts ++ caps.flatten) ts' ∧ List.Forall₂ Φ sixFaces caps := by
  have hpos : clipped.mesh.triangles.length ≠ 0 := by simpa using hcne
  have all : ∀ fs : List (Nat × Bool), (∀ f ∈ fs, f ∈ sixFaces) → ∃ ms caps, E.caps clipped lo up switch fs = .ok ms ∧
      List.Forall₂ (fun (m : Mesh K) ts => m.check = true ∧ m.visit = some ts) ms caps ∧ List.Forall₂ Φ fs caps := by
    intro fs
    induction fs with
    | nil => intro _; exact ⟨[], [], rfl, .nil, .nil⟩
    | cons f fs ih =>
      intro h
      obtain ⟨c, cap, k1, k2, k3, k4⟩ := one f (h f (by simp))
      obtain ⟨ms, caps, j1, j2, j3⟩ := ih fun x hx => h x (by simp [hx])
      exact ⟨c :: ms, cap :: caps, by simp only [Env.caps, k1, j1], .cons ⟨k2, k3⟩ j2, .cons k4 j3⟩
  obtain ⟨ms, caps, j1, j2, j3⟩ := all faces fun f hf => hf
  obtain ⟨m1, k1, k2, k3⟩ := appendAll_spec ms clipped.mesh ts caps hok.valid h1 j2
  obtain ⟨m2, ts', r1, r2, r3, r4, -⟩ := MeshUtil.C36_refine E.norm hE.zt_pos.le n k2 k3
  refine ⟨m2, caps, ts', ?_, r2, r3, r4, j3⟩
  unfold Env.build
  rw [if_pos hpos, j1]
  dsimp only
  rw [k1]
  dsimp only
  rw [r1 (n + 1) (by omega)]

/-- The edges on a face, as points. -/
def edgesAt (m : ClippedMesh K) (f : Nat × Bool) : List (Plane.Given K) := (edgesOn m (2 * f.1 + f.2.toNat)).getD []

theorem edgesAt_of {m : ClippedMesh K} {f : Nat × Bool} {es : List (Plane.Given K)} (h : FaceEdges m (2 * f.1 + f.2.toNat) es) : edgesAt m f = es := by
  unfold edgesAt
  rw [faceEdges_unique h]
  rfl

/-- The sum over the recorded edges, face by face. -/
theorem cut_sum {m : ClippedMesh K} (hb : EdgesIn m) (hcl : Clean m) (hd : ∀ j < 6, ∀ k < 6, j ≠ k → ∀ e ∈ m.edges j, e ∉ m.edges k)
    (hes : ∀ f ∈ sixFaces, ∃ es, FaceEdges m (2 * f.1 + f.2.toNat) es) (g : V3 K → V3 K → K) :
    ((cutEdges m).map fun e => g e.1 e.2).sum = (sixFaces.map fun f => ((edgesAt m f).map fun e => g e.1 e.2.1).sum).sum := by
  rw [((BRep.cut_perm hb hcl hd).map fun e => g e.1 e.2).sum_eq]
  have one : ∀ f ∈ sixFaces, (((m.edges (2 * f.1 + f.2.toNat)).flatMap fun e => endPoints m.mesh (e.1, e.2.1)).map fun e => g e.1 e.2) =
      (edgesAt m f).map fun e => g e.1 e.2.1 := by
    intro f hf
    obtain ⟨es, he⟩ := hes f hf
    rw [edgesAt_of he]
    unfold FaceEdges at he
    generalize m.edges (2 * f.1 + f.2.toNat) = rs at he
    induction he with
    | nil => rfl
    | cons h _ ih =>
      have : ∀ (r : Nat × Nat × Nat) (e : Plane.Given K), m.mesh.vertices[r.1]? = some e.1 → m.mesh.vertices[r.2.1]? = some e.2.1 →
          endPoints m.mesh (r.1, r.2.1) = [(e.1, e.2.1)] := by
        intro r e h1 h2
        simp only [endPoints, h1, h2]
      rw [List.flatMap_cons, List.map_append, ih, this _ _ h.1 h.2.1]
      rfl
  have hr : List.range 6 = sixFaces.map fun f => 2 * f.1 + f.2.toNat := by decide
  have key : ∀ fs : List (Nat × Bool), (∀ f ∈ fs, f ∈ sixFaces) →
      (((((fs.map fun f => 2 * f.1 + f.2.toNat).flatMap m.edges).flatMap fun e => endPoints m.mesh (e.1, e.2.1)).map fun e => g e.1 e.2)).sum =
        (fs.map fun f => ((edgesAt m f).map fun e => g e.1 e.2.1).sum).sum := by
    intro fs
    induction fs with
    | nil => intro _; rfl
    | cons f fs ih =>
      intro h
      rw [List.map_cons, List.flatMap_cons, List.flatMap_append, List.map_append, List.sum_append, ih (fun x hx => h x (by simp [hx])), one f (h f (by simp))]
      rfl
  rw [hr]
  exact key sixFaces fun _ h => h

/-- The differences along the edges of triangles cancel. -/
theorem edgeSum_difference (h : V3 K → K) (ts : List (Tri K)) : edgeSum (fun a b => h b - h a) ts = 0 := by
  unfold edgeSum
  induction ts with
  | nil => rfl
  | cons t ts ih => rw [List.flatMap_cons, List.map_append, List.sum_append, ih]; simp [edgesOf]

theorem lift_proj {P : Plane.Params K} (hA : P.Axes) {p : V3 K} (h : p.get P.d3 = P.face) : P.lift (P.proj p) = p := by
  unfold Plane.Params.lift Plane.Params.proj Plane.Params.position
  unfold Plane.Params.face at h
  rw [← h]
  rcases Plane.axes_cases hA with k | k | k | k | k | k <;> obtain ⟨_, k1, k2, k3⟩ := k <;> rw [k1, k2, k3] <;> rfl

/-- C103: the closed boundary of a trimmed cell is closed.  If the clipped surface is closed except along the edges recorded on the faces of
the cell, no edge is recorded on two faces, on each face the edges run around a region and avoid the corners, and the faces agree about the
corners of the cell, then the closed boundary is found, it contains the clipped surface, and every part of an edge of it is used in one
direction as often as in the other one. -/
theorem C103_sealed {E : Env K} (hE : E.Sound) (hsort : E.SortsTop) {node : Node K} {m : Mesh K} (hm : m.check = true) (hne : m.triangles ≠ [])
    (hn : m.triangles.length ≤ 2 ^ 30) {cl : Bool} {g : Query K} (hg : Query.new node E.maxd m cl = .ok g) {lo up : V3 K} {snap : K}
    (hsnap : snap = 1 / 10 * max (max (up.x - lo.x) (max (up.y - lo.y) (up.z - lo.z)) * E.snaptol) E.snaptol) (hzt : 10 * E.zt ≤ snap)
    (hx : 2 * snap ≤ up.x - lo.x) (hy : 2 * snap ≤ up.y - lo.y) (hz : 2 * snap ≤ up.z - lo.z)
    (hmx : up.x - lo.x + 20 * snap ≤ E.maxd) (hmy : up.y - lo.y + 20 * snap ≤ E.maxd) (hmz : up.z - lo.z + 20 * snap ≤ E.maxd)
    (hlx : -E.maxd ≤ lo.x) (hly : -E.maxd ≤ lo.y) (hlz : -E.maxd ≤ lo.z) {clipped : ClippedMesh K}
    (hc : BRep.clipTriangleMesh E.zt E.snaptol g lo up = .ok clipped) (hcne : clipped.mesh.triangles ≠ []) (n : Nat) (switch : Bool)
    (hloose : BothWays (looseEdges clipped)) (hd : ∀ j < 6, ∀ k < 6, j ≠ k → ∀ e ∈ clipped.edges j, e ∉ clipped.edges k)
    {corner : V3 K → K} (hf : ∀ f ∈ sixFaces, ∀ P es, E.face clipped.mesh lo up switch f.1 f.2 = .ok P →
      FaceEdges clipped (2 * f.1 + f.2.toNat) es → P.SealedBounds es corner) :
    ∃ closed ts caps ts', E.build clipped lo up n switch = .ok closed ∧ closed.check = true ∧ clipped.mesh.visit = some ts ∧ closed.visit = some ts' ∧
      RefinementOf (ts ++ caps) ts' ∧ SealedSurface ts' := by
  have h0 : 0 < snap := by
    have := hE.snaptol_pos
    have : E.snaptol ≤ max (max (up.x - lo.x) (max (up.y - lo.y) (up.z - lo.z)) * E.snaptol) E.snaptol := le_max_right _ _
    rw [hsnap]; linarith
  obtain ⟨hok, ts, h1, -⟩ := clip_edges hE.zt_pos.le hE.snaptol_pos hm hne hn hg hsnap hzt hx hy hz hc
  obtain ⟨hb, hclean⟩ := BRep.clean_clip hc
  -- the ways to the points
  obtain ⟨H, hH⟩ : ∃ H : (V3 K → V3 K → K) → V3 K → K, H = fun q => reach lo up q fun f p =>
    (E.plane clipped.mesh lo up switch f).way ((E.plane clipped.mesh lo up switch f).along q) ((E.plane clipped.mesh lo up switch f).proj p) := ⟨_, rfl⟩
  have one : ∀ f ∈ sixFaces, ∃ c cap, E.cap clipped lo up switch f.1 f.2 = .ok c ∧ c.check = true ∧ c.visit = some cap ∧
      ∀ q, EdgeQuantity q → edgeSum q cap + ((edgesAt clipped f).map fun e => q e.1 e.2.1).sum =
        ((edgesAt clipped f).map fun e => H q e.2.1 - H q e.1).sum +
          cornerRim (E.plane clipped.mesh lo up switch f) ((E.plane clipped.mesh lo up switch f).along q) corner := by
    intro f hfm
    obtain ⟨P, es, hP, S, e1, e2⟩ := face_edges hE hok switch hfm
    have hPe : P = E.plane clipped.mesh lo up switch f := by
      have := face_plane E clipped.mesh lo up switch hfm
      rw [hP] at this
      exact Except.ok.inj this
    have htol : P.tol = 10 * snap := by rw [S.tol, hsnap]; ring
    have hs : P.SortsTop := by
      have : P.sortE = E.sortE := by
        unfold Env.face at hP
        split at hP
        · exact absurd hP (by simp)
        · cases hP; rfl
      intro vs l
      rw [this]
      exact hsort vs l
    obtain ⟨hgen, hruns, hcorn, mid, vs, tops, U, N, b1, b2, b3, b4, b5, b6, b7, b8, b9, b10, b11⟩ := hf f hfm P es hP e2
    have hlu : P.lo.get P.d1 < P.up.get P.d1 := by rw [S.lower, S.upper]; rcases P.d1 with _ | _ | d <;> simp only [V3.get] <;> linarith
    obtain ⟨c, cap, r1, r2, r3⟩ := Plane.C73_rim S.sound hs S.axes
      (by rw [S.lower, S.upper, S.maxd, htol]; rcases P.d1 with _ | _ | d <;> simp only [V3.get] <;> linarith) hlu
      (by rw [S.lower, S.maxd]; rcases P.d2 with _ | _ | d <;> simp only [V3.get] <;> assumption) hgen b1 b2 b3 b4 b5 b6 b7
    have hcap : E.cap clipped lo up switch f.1 f.2 = .ok c.mesh := by
      unfold Env.cap
      rw [hP]
      dsimp only
      rw [e1]
      dsimp only
      rw [r1]
    obtain ⟨hcheck, -⟩ := cap_spec hE hok (by linarith) (by linarith) (by linarith) hcap
    refine ⟨c.mesh, cap, hcap, hcheck, r2, fun q hq => ?_⟩
    have hrim := Plane.face_rim S.sound S.axes hlu hgen hruns b1 b2 b3 b4 b5.right b8 b9 b10 b11 (Plane.quantity_along S.axes hq)
    rw [edgesAt_of e2, r3 q hq]
    have t1 : (es.map fun e => q e.1 e.2.1) = es.map fun e => P.along q (P.proj e.1) (P.proj e.2.1) := by
      refine List.map_congr_left fun e he => ?_
      unfold Plane.Params.along
      rw [lift_proj S.axes (hruns e he).plane.1, lift_proj S.axes (hruns e he).plane.2]
    have t2 : (es.map fun e => H q e.2.1 - H q e.1) = es.map fun e => P.short (P.along q) (P.proj e.2.1) - P.short (P.along q) (P.proj e.1) := by
      refine List.map_congr_left fun e he => ?_
      have p1 : P.proj e.1 ∈ P.points es := List.mem_flatMap.2 ⟨e, he, by simp⟩
      have p2 : P.proj e.2.1 ∈ P.points es := List.mem_flatMap.2 ⟨e, he, by simp⟩
      rw [hH]
      have w1 := reach_short E clipped.mesh (show lo.x < up.x by linarith) (show lo.y < up.y by linarith) (show lo.z < up.z by linarith) switch q hfm hPe
        (hruns e he).plane.1 (hcorn _ p1)
      have w2 := reach_short E clipped.mesh (show lo.x < up.x by linarith) (show lo.y < up.y by linarith) (show lo.z < up.z by linarith) switch q hfm hPe
        (hruns e he).plane.2 (hcorn _ p2)
      dsimp only
      rw [w1, w2]
    rw [t1, t2, hrim, ← hPe]
    rfl
  obtain ⟨closed, caps, ts', k1, k2, k3, k4, k5⟩ := build_of_each hE hok hcne h1 n one
  refine ⟨closed, ts, caps.flatten, ts', k1, k2, h1, k3, k4, fun q hq => ?_⟩
  rw [MeshUtil.refinement_edges hq k4, MeshUtil.edgeSum_append]
  have hes : ∀ f ∈ sixFaces, ∃ es, FaceEdges clipped (2 * f.1 + f.2.toNat) es := by
    intro f hfm
    obtain ⟨-, es, -, -, -, e2⟩ := face_edges hE hok switch hfm
    exact ⟨es, e2⟩
  have c1 := BRep.edgeSum_of_loose hloose h1 hq.swap
  have c2 := BRep.edgeSum_of_loose hloose h1 (g := fun a b => H q b - H q a) (by intro a b; ring)
  rw [edgeSum_difference, cut_sum hb hclean hd hes fun a b => H q b - H q a] at c2
  rw [cut_sum hb hclean hd hes] at c1
  have c3 := corner_sum E clipped.mesh lo up switch q corner
  have c4 : ∀ (fs : List (Nat × Bool)) (caps : List (List (Tri K))), List.Forall₂ (fun f cap => ∀ q, EdgeQuantity q →
      edgeSum q cap + ((edgesAt clipped f).map fun e => q e.1 e.2.1).sum = ((edgesAt clipped f).map fun e => H q e.2.1 - H q e.1).sum +
          cornerRim (E.plane clipped.mesh lo up switch f) ((E.plane clipped.mesh lo up switch f).along q) corner) fs caps →
      edgeSum q caps.flatten + (fs.map fun f => ((edgesAt clipped f).map fun e => q e.1 e.2.1).sum).sum =
        (fs.map fun f => ((edgesAt clipped f).map fun e => H q e.2.1 - H q e.1).sum).sum +
          (fs.map fun f => cornerRim (E.plane clipped.mesh lo up switch f) ((E.plane clipped.mesh lo up switch f).along q) corner).sum := by
    intro fs caps h
    induction h with
    | nil => simp [edgeSum]
    | cons h _ ih =>
      have := h q hq
      rw [List.flatten_cons, MeshUtil.edgeSum_append]
      simp only [List.map_cons, List.sum_cons]
      linear_combination ih + this
  have := c4 _ _ k5
  rw [c1]
  linear_combination this - c2 + c3

/-- C103 for a closed mesh: the cell cuts it clearly, as in C101. -/
theorem C103_closed_partial {E : Env K} (hE : E.Sound) (hsort : E.SortsTop) {node : Node K} {m : Mesh K} (hm : m.check = true) (hne : m.triangles ≠ [])
    (hn : m.triangles.length ≤ 2 ^ 30) {us : List (Tri K)} (hv : m.visit = some us) (hcl : ClosedSurface us) {cl : Bool} {lo up : V3 K} {snap : K}
    (hsnap : snap = 1 / 10 * max (max (up.x - lo.x) (max (up.y - lo.y) (up.z - lo.z)) * E.snaptol) E.snaptol) (hzt : 10 * E.zt ≤ snap)
    (hx : 2 * snap ≤ up.x - lo.x) (hy : 2 * snap ≤ up.y - lo.y) (hz : 2 * snap ≤ up.z - lo.z)
    (hmx : up.x - lo.x + 20 * snap ≤ E.maxd) (hmy : up.y - lo.y + 20 * snap ≤ E.maxd) (hmz : up.z - lo.z + 20 * snap ≤ E.maxd)
    (hlx : -E.maxd ≤ lo.x) (hly : -E.maxd ≤ lo.y) (hlz : -E.maxd ≤ lo.z) (hdec : ∀ t ∈ us, Decided E.zt snap lo up t) (n : Nat) (switch : Bool) :
    ∃ g clipped, Query.new node E.maxd m cl = .ok g ∧ BRep.clipTriangleMesh E.zt E.snaptol g lo up = .ok clipped ∧
      (clipped.mesh.triangles ≠ [] → (∀ j < 6, ∀ k < 6, j ≠ k → ∀ e ∈ clipped.edges j, e ∉ clipped.edges k) →
        ∀ corner : V3 K → K, (∀ f ∈ sixFaces, ∀ P es, E.face clipped.mesh lo up switch f.1 f.2 = .ok P →
          FaceEdges clipped (2 * f.1 + f.2.toNat) es → P.SealedBounds es corner) →
        ∃ closed ts', E.build clipped lo up n switch = .ok closed ∧ closed.check = true ∧ closed.visit = some ts' ∧ SealedSurface ts') := by
  obtain ⟨g, clipped, h1, h2, h3, -⟩ := BRep.C101_closed_partial node E.maxd E.zt E.snaptol snap hE.zt_pos.le hE.snaptol_pos m hm hne hn cl lo up hsnap hx hy hz us hv hcl hdec
  refine ⟨g, clipped, h1, h2, fun hcne hd corner hf => ?_⟩
  obtain ⟨closed, ts, caps, ts', k1, k2, -, k3, -, k4⟩ := C103_sealed hE hsort hm hne hn h1 hsnap hzt hx hy hz hmx hmy hmz hlx hly hlz h2 hcne n switch h3 hd hf
  exact ⟨closed, ts', k1, k2, k3, k4⟩

/-! ### Example: the plane z = 1/2 in the unit cell -/

/-- The lower corners of the cell belong to the solid. -/
def exCorner (p : V3 ℚ) : ℚ := if p.z < 1 / 2 then 1 else 0

theorem runs_of {P : Plane.Params K} {e : Plane.Given K} (h : (e.1.get P.d3 = P.face ∧ e.2.1.get P.d3 = P.face) ∧ P.orient e.1 e.2.1 e.2.2 ≠ none ∧
    V3.dot (V3.cross e.2.2 (e.2.1 - e.1)) P.outward < 0) : P.Runs e := ⟨h.1, h.2.1, h.2.2⟩

theorem exSealed_x (upper : Bool) {es : List (Plane.Given ℚ)} (hes : es = if upper then exEdges.getD 1 [] else exEdges.getD 0 []) :
    (exFace 1 2 0 upper).SealedBounds es exCorner := by
  have hB := exFace_x upper hes
  refine ⟨hB.1, fun e he => runs_of ?_, ?_, [], [(0, true), (1, false)], [], [(⟨0, 1 / 2⟩, ⟨1, 1 / 2⟩)], [], ?_, ?_, ?_, ?_, ?_, ?_, ?_, ?_, ?_, ?_, ?_⟩
  · subst hes; revert e; cases upper <;> decide +kernel
  · subst hes; cases upper <;> decide +kernel
  · subst hes
    cases upper <;> exact ⟨by decide +kernel, by decide +kernel, by decide +kernel⟩
  · subst hes
    cases upper <;>
      refine ⟨fun h => absurd ⟨by decide +kernel, by decide +kernel, rfl⟩ h, fun _ => ⟨1 / 2, ⟨by decide +kernel, ?_, Or.inr ⟨⟨0, 1 / 2⟩, Or.inl (by decide +kernel), rfl⟩⟩,
        by decide +kernel⟩⟩ <;> rintro p (hp | hp) <;> revert p <;> decide +kernel
  · subst hes; cases upper <;> decide +kernel
  · subst hes; cases upper <;> decide +kernel
  · exact section_single _ (by cases upper <;> decide +kernel) _ (by cases upper <;> decide +kernel) (by cases upper <;> decide +kernel)
  · intro e he
    refine ⟨?_, fun _ _ _ hf => absurd hf (by simp)⟩
    subst hes
    revert e
    cases upper <;> decide +kernel
  · exact ⟨by decide +kernel, fun _ _ _ hf => absurd hf (by simp)⟩
  · intro x h1 h2
    subst hes
    cases upper <;> norm_num [Plane.Params.degree, Plane.isAt, Plane.Params.proj, exEdges, exFace, V3.get, Plane.Params.turn]
  · cases upper <;> decide +kernel
  · cases upper <;> decide +kernel
  · cases upper <;> decide +kernel

theorem exSealed_y (upper : Bool) {es : List (Plane.Given ℚ)} (hes : es = if upper then exEdges.getD 3 [] else exEdges.getD 2 []) :
    (exFace 2 0 1 upper).SealedBounds es exCorner := by
  have hB := exFace_y upper hes
  refine ⟨hB.1, fun e he => runs_of ?_, ?_, [(1 / 2, false)], [(0, true), (1 / 2, false), (1, false)], [(⟨0, 1⟩, ⟨1 / 2, 1⟩)], [(⟨0, 1⟩, ⟨1 / 2, 1⟩)], [],
    ?_, ?_, ?_, ?_, ?_, ?_, ?_, ?_, ?_, ?_, ?_⟩
  · subst hes; revert e; cases upper <;> decide +kernel
  · subst hes; cases upper <;> decide +kernel
  · subst hes
    cases upper <;> exact ⟨by decide +kernel, by decide +kernel, by decide +kernel⟩
  · subst hes
    cases upper <;> exact ⟨fun _ => by decide +kernel, fun h => absurd h.2.2 (by simp)⟩
  · subst hes; cases upper <;> decide +kernel
  · subst hes; cases upper <;> decide +kernel
  · exact section_single _ (by cases upper <;> decide +kernel) _ (by cases upper <;> decide +kernel) (by cases upper <;> decide +kernel)
  · intro e he
    refine ⟨?_, fun _ _ _ hf => absurd hf (by simp)⟩
    subst hes
    revert e
    cases upper <;> decide +kernel
  · exact ⟨by decide +kernel, fun _ _ _ hf => absurd hf (by simp)⟩
  · intro x h1 h2
    subst hes
    have h0 : (0 : ℚ) < x := h1
    cases upper <;> norm_num [Plane.Params.degree, Plane.isAt, Plane.Params.proj, exEdges, exFace, V3.get, Plane.Params.turn, h0.ne] <;> split_ifs <;> norm_num
  · cases upper <;> decide +kernel
  · cases upper <;> decide +kernel
  · cases upper <;> decide +kernel

theorem exSealed_z (upper : Bool) : (exFace 0 1 2 upper).SealedBounds [] exCorner := by
  have hB := exFace_z upper
  refine ⟨hB.1, by simp, by simp [Plane.Params.points], [], [(0, true), (1, false)], if upper then [] else [(⟨0, 1⟩, ⟨1, 1⟩)],
    if upper then [] else [(⟨0, 1⟩, ⟨1, 1⟩)], [], ?_, ?_, ?_, ?_, ?_, ?_, ?_, ?_, ?_, ?_, ?_⟩
  · cases upper <;> exact ⟨by decide +kernel, by decide +kernel, by decide +kernel⟩
  · cases upper <;>
      refine ⟨fun h => absurd ⟨by decide +kernel, by decide +kernel, rfl⟩ h, fun _ => ⟨0, ⟨by decide +kernel, ?_, Or.inl (by decide +kernel)⟩,
        by decide +kernel⟩⟩ <;> rintro p (hp | hp) <;> revert p <;> decide +kernel
  · cases upper <;> decide +kernel
  · cases upper <;> decide +kernel
  · cases upper
    · exact section_single _ (by decide +kernel) _ (by decide +kernel) (by decide +kernel)
    · exact section_nil _
  · intro e he
    cases upper <;> exact absurd he (by simp [Plane.Params.ofOrient])
  · exact ⟨by decide +kernel, fun _ _ _ hf => absurd hf (by simp)⟩
  · intro x h1 h2
    have h0 : (0 : ℚ) < x := h1
    have h3 : x < (1 : ℚ) := h2
    cases upper <;> norm_num [Plane.Params.degree, Plane.isAt, exFace, V3.get, Plane.Params.turn, h0.ne, h3.ne']
  · cases upper <;> decide +kernel
  · cases upper <;> decide +kernel
  · cases upper <;> decide +kernel

/-- A closed surface: a tetrahedron of which the cell sees only one side, the plane z = 1/2. -/
def exSolid : Mesh ℚ :=
  ⟨[⟨-2, -2, 1 / 2⟩, ⟨5, -2, 1 / 2⟩, ⟨-2, 5, 1 / 2⟩, ⟨-2, -2, -10⟩], [⟨0, 1, 2⟩, ⟨1, 0, 3⟩, ⟨2, 1, 3⟩, ⟨0, 2, 3⟩], [⟨0, 0, 1⟩, ⟨0, -1, 0⟩, ⟨3, 3, -2⟩, ⟨-1, 0, 0⟩]⟩

theorem exSolid_decided {us : List (Tri ℚ)} (hv : exSolid.visit = some us) {snap : ℚ} (hs : snap ≤ 1 / 10) :
    ∀ t ∈ us, Decided exEnvT.zt snap ⟨0, 0, 0⟩ ⟨1, 1, 1⟩ t := by
  have hz : 10 * exEnvT.zt ≤ 1 / 10 := by decide +kernel
  have e : us = [⟨⟨-2, -2, 1 / 2⟩, ⟨5, -2, 1 / 2⟩, ⟨-2, 5, 1 / 2⟩, ⟨0, 0, 1⟩⟩, ⟨⟨5, -2, 1 / 2⟩, ⟨-2, -2, 1 / 2⟩, ⟨-2, -2, -10⟩, ⟨0, -1, 0⟩⟩,
      ⟨⟨-2, 5, 1 / 2⟩, ⟨5, -2, 1 / 2⟩, ⟨-2, -2, -10⟩, ⟨3, 3, -2⟩⟩, ⟨⟨-2, -2, 1 / 2⟩, ⟨-2, 5, 1 / 2⟩, ⟨-2, -2, -10⟩, ⟨-1, 0, 0⟩⟩] := by
    have : exSolid.visit = some [⟨⟨-2, -2, 1 / 2⟩, ⟨5, -2, 1 / 2⟩, ⟨-2, 5, 1 / 2⟩, ⟨0, 0, 1⟩⟩, ⟨⟨5, -2, 1 / 2⟩, ⟨-2, -2, 1 / 2⟩, ⟨-2, -2, -10⟩, ⟨0, -1, 0⟩⟩,
      ⟨⟨-2, 5, 1 / 2⟩, ⟨5, -2, 1 / 2⟩, ⟨-2, -2, -10⟩, ⟨3, 3, -2⟩⟩, ⟨⟨-2, -2, 1 / 2⟩, ⟨-2, 5, 1 / 2⟩, ⟨-2, -2, -10⟩, ⟨-1, 0, 0⟩⟩] := by decide +kernel
    rw [hv] at this
    exact Option.some.inj this
  intro t ht
  rw [e] at ht
  simp only [List.mem_cons, List.not_mem_nil, or_false] at ht
  rcases ht with rfl | rfl | rfl | rfl
  · refine Or.inl ⟨⟨1 / 2, 1 / 2, 1 / 2⟩, ⟨2 / 7, 5 / 14, 5 / 14, by norm_num, by norm_num, by norm_num, by norm_num, by norm_num, by norm_num, by norm_num⟩, ?_⟩
    refine ⟨⟨?_, ?_⟩, ⟨?_, ?_⟩, ⟨?_, ?_⟩⟩ <;> dsimp only <;> linarith
  all_goals
    refine Or.inr ?_
    rintro q ⟨u, v, w, hu, hv, hw, h1, hx, hy, hz'⟩ ⟨⟨a1, a2⟩, ⟨a3, a4⟩, ⟨a5, a6⟩⟩
    dsimp only at hx hy hz' a1 a2 a3 a4 a5 a6
    linarith

/-- C103 is not empty: the closed surface is clipped, the faces agree about the corners, and the closed boundary of the lower half of the cell is closed. -/
theorem exSealed : ∃ g clipped closed ts', Query.new exNode exEnvT.maxd exSolid true = .ok g ∧
    BRep.clipTriangleMesh exEnvT.zt exEnvT.snaptol g ⟨0, 0, 0⟩ ⟨1, 1, 1⟩ = .ok clipped ∧ exEnvT.build clipped ⟨0, 0, 0⟩ ⟨1, 1, 1⟩ 40 false = .ok closed ∧
    closed.visit = some ts' ∧ SealedSurface ts' := by
  have hrun : (match Query.new exNode exEnvT.maxd exSolid true with
    | .error _ => false
    | .ok g =>
      match BRep.clipTriangleMesh exEnvT.zt exEnvT.snaptol g ⟨0, 0, 0⟩ ⟨1, 1, 1⟩ with
      | .error _ => false
      | .ok c => ((List.range 6).all fun k => decide (edgesOn c k = exEdges[k]?)) && decide (c.mesh.triangles ≠ []) &&
          ((List.range 6).all fun j => (List.range 6).all fun k => decide (j = k) || (c.edges j).all fun e => decide (e ∉ c.edges k))) = true := by decide +kernel
  obtain ⟨us, u1, u2⟩ : ∃ us, exSolid.visit = some us ∧ (us.flatMap edgesOf).Perm ((us.flatMap edgesOf).map Prod.swap) :=
    ⟨(exSolid.visit).get (by decide +kernel), by simp, by decide +kernel⟩
  obtain ⟨snap, hsnap⟩ : ∃ snap : ℚ, snap = 1 / 10 * max (max ((⟨1, 1, 1⟩ : V3 ℚ).x - (⟨0, 0, 0⟩ : V3 ℚ).x)
      (max ((⟨1, 1, 1⟩ : V3 ℚ).y - (⟨0, 0, 0⟩ : V3 ℚ).y) ((⟨1, 1, 1⟩ : V3 ℚ).z - (⟨0, 0, 0⟩ : V3 ℚ).z)) * exEnvT.snaptol) exEnvT.snaptol := ⟨_, rfl⟩
  have s0 : snap ≤ 1 / 10 := by rw [hsnap]; decide +kernel
  have s1 : 10 * exEnvT.zt ≤ snap := by rw [hsnap]; decide +kernel
  have s2 : 2 * snap ≤ (1 : ℚ) - 0 := by rw [hsnap]; decide +kernel
  have s3 : (1 : ℚ) - 0 + 20 * snap ≤ exEnvT.maxd := by rw [hsnap]; decide +kernel
  have s4 : -exEnvT.maxd ≤ (0 : ℚ) := by decide +kernel
  obtain ⟨g, c, hg, hc, h⟩ := C103_closed_partial exEnvT_sound exEnvT_sortsTop (node := exNode) (m := exSolid) (cl := true) (by decide +kernel) (by decide +kernel) (by decide +kernel) u1 u2
    hsnap s1 s2 s2 s2 s3 s3 s3 s4 s4 s4 (exSolid_decided u1 s0) 40 false
  rw [hg] at hrun
  dsimp only at hrun
  rw [hc] at hrun
  simp only [Bool.and_eq_true, Bool.or_eq_true, List.all_eq_true, List.mem_range, decide_eq_true_eq] at hrun
  obtain ⟨⟨r1, r2⟩, r4⟩ := hrun
  obtain ⟨closed, ts', k1, -, k4, k6⟩ := h r2 (by
    intro j hj k hk hjk e he
    rcases r4 j hj k hk with h | h
    · exact absurd h hjk
    · exact h e he) exCorner (by
    intro f hf P es hP hes
    have hes := faceEdges_unique hes
    simp only [sixFaces, List.mem_cons, List.not_mem_nil, or_false] at hf
    rcases hf with rfl | rfl | rfl | rfl | rfl | rfl
    · cases hP
      rw [r1 _ (by decide)] at hes
      exact exSealed_x false (by cases hes; rfl)
    · cases hP
      rw [r1 _ (by decide)] at hes
      exact exSealed_x true (by cases hes; rfl)
    · cases hP
      rw [r1 _ (by decide)] at hes
      exact exSealed_y false (by cases hes; rfl)
    · cases hP
      rw [r1 _ (by decide)] at hes
      exact exSealed_y true (by cases hes; rfl)
    · cases hP
      rw [r1 _ (by decide)] at hes
      cases hes
      exact exSealed_z false
    · cases hP
      rw [r1 _ (by decide)] at hes
      cases hes
      exact exSealed_z true)
  exact ⟨g, c, closed, ts', hg, hc, k1, k4, k6⟩

end QuESo.Domain
