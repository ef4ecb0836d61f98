import Verif.Spec.TrimmedSection
import Verif.Props.TrimmedDomain
import Verif.Props.PlaneSection

/-!
# C77: the closed boundary of a trimmed cell whose faces are cut in regions
-/
namespace QuESo.Domain
open QuESo.AABBTree (Fault Node)
open QuESo.Spec QuESo.Clip QuESo.GQ
variable {K : Type} [Field K] [LinearOrder K] [IsStrictOrderedRing K]

/-- All caps are found if each one is. -/
theorem caps_of_each {E : Env K} {clipped : ClippedMesh K} {lo up : V3 K} {switch : Bool}
    (one : ∀ f ∈ sixFaces, ∃ c, E.cap clipped lo up switch f.1 f.2 = .ok c) : ∃ ms, E.caps clipped lo up switch faces = .ok ms := by
  have all : ∀ fs : List (Nat × Bool), (∀ f ∈ fs, f ∈ sixFaces) → ∃ ms, E.caps clipped lo up switch fs = .ok ms := by
    intro fs
    induction fs with
    | nil => intro _; exact ⟨[], rfl⟩
    | cons f fs ih =>
      intro h
      obtain ⟨c, hc⟩ := one f (h f (by simp))
      obtain ⟨ms, hms⟩ := ih fun x hx => h x (by simp [hx])
      exact ⟨c :: ms, by simp only [Env.caps, hc, hms]⟩
  exact all faces fun f hf => hf

/-- The set-up of one face and its edges. -/
theorem face_edges {E : Env K} (hE : E.Sound) {clipped : ClippedMesh K} {lo up : V3 K} (hok : EdgesOk E.zt lo up clipped) (switch : Bool)
    {f : Nat × Bool} (hf : f ∈ sixFaces) : ∃ P es, E.face clipped.mesh lo up switch f.1 f.2 = .ok P ∧ E.SetUp clipped.mesh lo up f P ∧
      edgesOn clipped P.axis = some es ∧ FaceEdges clipped (2 * f.1 + f.2.toNat) es := by
  have hface : ∃ P, E.face clipped.mesh lo up switch f.1 f.2 = .ok P := by
    simp only [sixFaces, List.mem_cons, List.not_mem_nil, or_false] at hf
    rcases hf with rfl | rfl | rfl | rfl | rfl | rfl <;> exact ⟨_, rfl⟩
  obtain ⟨P, hP⟩ := hface
  have S := face_spec hE hP
  obtain ⟨es, e1, e2, -⟩ := edgesOn_some hok P.axis
  have hax : P.axis = 2 * f.1 + f.2.toNat := by
    unfold Plane.Params.axis
    rw [S.direction, S.side]
    cases f.2 <;> simp <;> omega
  exact ⟨P, es, hP, S, e1, by rw [← hax]; exact e2⟩

/-- C77 (safety): building the closed boundary does not fail if on each face the edges are in general position. -/
theorem C77_general {E : Env K} (hE : E.Sound) (hsort : E.SortsTop) {node : Node K} {m : Mesh K} (hm : m.check = true) (hne : m.triangles ≠ [])
    (hn : m.triangles.length ≤ 2 ^ 30) {cl : Bool} {g : Query K} (hg : Query.new node E.maxd m cl = .ok g) {lo up : V3 K} {snap : K}
    (hsnap : snap = 1 / 10 * max (max (up.x - lo.x) (max (up.y - lo.y) (up.z - lo.z)) * E.snaptol) E.snaptol) (hzt : 10 * E.zt ≤ snap)
    (hx : 2 * snap ≤ up.x - lo.x) (hy : 2 * snap ≤ up.y - lo.y) (hz : 2 * snap ≤ up.z - lo.z)
    (hmx : up.x - lo.x + 20 * snap ≤ E.maxd) (hmy : up.y - lo.y + 20 * snap ≤ E.maxd) (hmz : up.z - lo.z + 20 * snap ≤ E.maxd)
    (hlx : -E.maxd ≤ lo.x) (hly : -E.maxd ≤ lo.y) (hlz : -E.maxd ≤ lo.z) {clipped : ClippedMesh K}
    (hc : BRep.clipTriangleMesh E.zt E.snaptol g lo up = .ok clipped) (n : Nat) (switch : Bool)
    (hf : ∀ f ∈ sixFaces, ∀ P es, E.face clipped.mesh lo up switch f.1 f.2 = .ok P → FaceEdges clipped (2 * f.1 + f.2.toNat) es → P.General es) :
    ∃ closed, E.build clipped lo up n switch = .ok closed := by
  have h0 : 0 < snap := by
    have := hE.snaptol_pos
    have : E.snaptol ≤ max (max (up.x - lo.x) (max (up.y - lo.y) (up.z - lo.z)) * E.snaptol) E.snaptol := le_max_right _ _
    rw [hsnap]; linarith
  obtain ⟨hok, ts, h1, -⟩ := clip_edges hE.zt_pos.le hE.snaptol_pos hm hne hn hg hsnap hzt hx hy hz hc
  by_cases hpos : clipped.mesh.triangles.length ≠ 0
  swap
  · exact ⟨clipped.mesh, by unfold Env.build; rw [if_neg hpos]⟩
  obtain ⟨ms, hms⟩ := caps_of_each (E := E) (clipped := clipped) (lo := lo) (up := up) (switch := switch) (by
    intro f hfm
    obtain ⟨P, es, hP, S, e1, e2⟩ := face_edges hE hok switch hfm
    have htol : P.tol = 10 * snap := by rw [S.tol, hsnap]; ring
    have hs : P.SortsTop := by
      have : P.sortE = E.sortE := by
        unfold Env.face at hP
        split at hP
        · exact absurd hP (by simp)
        · cases hP; rfl
      intro vs l
      rw [this]
      exact hsort vs l
    obtain ⟨c, hrun⟩ := Plane.C72_general S.sound hs S.axes
      (by rw [S.lower, S.upper, S.maxd, htol]; rcases P.d1 with _ | _ | d <;> simp only [V3.get] <;> linarith)
      (by rw [S.lower, S.upper]; rcases P.d1 with _ | _ | d <;> simp only [V3.get] <;> linarith)
      (by rw [S.lower, S.maxd]; rcases P.d2 with _ | _ | d <;> simp only [V3.get] <;> assumption) (hf f hfm P es hP e2)
    refine ⟨c.mesh, ?_⟩
    unfold Env.cap
    rw [hP]
    dsimp only
    rw [e1]
    dsimp only
    rw [hrun])
  obtain ⟨closed, h, -⟩ := build_of_caps hE hok (by linarith) (by linarith) (by linarith) n hpos hms h1
  exact ⟨closed, h⟩

/-- The sum of the volumes between the origin and triangles in the plane of a face. -/
theorem cap_volume {lo up : V3 K} {tol : K} {f : Nat × Bool} (hf : f ∈ sixFaces) {ts : List (Tri K)} (h : IsCap lo up tol f ts) {A : K}
    (hA : surfaceArea2 ts = V3.scale A (outwardOf f.1 f.2)) : volume6 ts = A * offset lo up f := by
  have key : ∀ ts : List (Tri K), IsCap lo up tol f ts → ∀ s : K, s = (if f.2 then (1 : K) else -1) →
      volume6 ts = s * offset lo up f * (surfaceArea2 ts).get f.1 := by
    intro ts
    induction ts with
    | nil => intro _ s _; simp only [volume6, surfaceArea2, sumV, List.map_nil, List.sum_nil]
             simp only [sixFaces, List.mem_cons, List.not_mem_nil, or_false] at hf
             rcases hf with rfl | rfl | rfl | rfl | rfl | rfl <;> simp [V3.get]
    | cons t ts ih =>
      intro h s hs
      have ht := (h t (by simp)).2
      have i := ih (fun u hu => h u (by simp [hu])) s hs
      have t1 := (ht t.p1 (by simp)).1
      have t2 := (ht t.p2 (by simp)).1
      have t3 := (ht t.p3 (by simp)).1
      unfold volume6 surfaceArea2 at i ⊢
      simp only [sixFaces, List.mem_cons, List.not_mem_nil, or_false] at hf
      rcases hf with rfl | rfl | rfl | rfl | rfl | rfl <;>
        simp only [InFacePlane, if_true, if_false, Bool.false_eq_true] at t1 t2 t3 <;>
        simp only [offset, if_true, if_false, Bool.false_eq_true, V3.get, sumV, List.map_cons, List.sum_cons, triangleArea2] at i hs ⊢ <;>
        rw [i, t1, t2, t3, hs] <;> ring
  rw [key ts h _ rfl, hA]
  simp only [sixFaces, List.mem_cons, List.not_mem_nil, or_false] at hf
  rcases hf with rfl | rfl | rfl | rfl | rfl | rfl <;> simp [V3.get, V3.scale, outwardOf, offset] <;> ring

/-- C77: if on each face of the cell the edges bound a region, then the closed boundary is found, each cap is the region of its face, with
all triangles pointing outwards, and the signed volume and the area vector of the closed boundary are those of the clipped
surface plus what the regions contribute: six times the volume grows by twice the area of each region times the distance of its plane
from the origin. -/
theorem C77_regions {E : Env K} (hE : E.Sound) (hsort : E.SortsTop) {node : Node K} {m : Mesh K} (hm : m.check = true) (hne : m.triangles ≠ [])
    (hn : m.triangles.length ≤ 2 ^ 30) {cl : Bool} {g : Query K} (hg : Query.new node E.maxd m cl = .ok g) {lo up : V3 K} {snap : K}
    (hsnap : snap = 1 / 10 * max (max (up.x - lo.x) (max (up.y - lo.y) (up.z - lo.z)) * E.snaptol) E.snaptol) (hzt : 10 * E.zt ≤ snap)
    (hx : 2 * snap ≤ up.x - lo.x) (hy : 2 * snap ≤ up.y - lo.y) (hz : 2 * snap ≤ up.z - lo.z)
    (hmx : up.x - lo.x + 20 * snap ≤ E.maxd) (hmy : up.y - lo.y + 20 * snap ≤ E.maxd) (hmz : up.z - lo.z + 20 * snap ≤ E.maxd)
    (hlx : -E.maxd ≤ lo.x) (hly : -E.maxd ≤ lo.y) (hlz : -E.maxd ≤ lo.z) {clipped : ClippedMesh K}
    (hc : BRep.clipTriangleMesh E.zt E.snaptol g lo up = .ok clipped) (hcne : clipped.mesh.triangles ≠ []) (n : Nat) (switch : Bool)
    {area : Nat × Bool → K} (hf : ∀ f ∈ sixFaces, ∀ P es, E.face clipped.mesh lo up switch f.1 f.2 = .ok P →
      FaceEdges clipped (2 * f.1 + f.2.toNat) es → P.Bounds es (area f)) :
    ∃ closed ts caps ts', E.build clipped lo up n switch = .ok closed ∧ closed.check = true ∧ clipped.mesh.visit = some ts ∧ closed.visit = some ts' ∧
      RefinementOf (ts ++ caps.flatten) ts' ∧
      List.Forall₂ (fun f cap => IsCap lo up (10 * E.zt) f cap ∧ surfaceArea2 cap = V3.scale (2 * area f) (outwardOf f.1 f.2) ∧
        ∀ t ∈ cap, ∃ k, 0 ≤ k ∧ triangleArea2 t.p1 t.p2 t.p3 = V3.scale k (outwardOf f.1 f.2)) sixFaces caps ∧
      surfaceArea2 ts' = sumV (surfaceArea2 ts :: sixFaces.map fun f => V3.scale (2 * area f) (outwardOf f.1 f.2)) ∧
      volume6 ts' = volume6 ts + (sixFaces.map fun f => 2 * area f * offset lo up f).sum := by
  have h0 : 0 < snap := by
    have := hE.snaptol_pos
    have : E.snaptol ≤ max (max (up.x - lo.x) (max (up.y - lo.y) (up.z - lo.z)) * E.snaptol) E.snaptol := le_max_right _ _
    rw [hsnap]; linarith
  obtain ⟨hok, ts, h1, -⟩ := clip_edges hE.zt_pos.le hE.snaptol_pos hm hne hn hg hsnap hzt hx hy hz hc
  have hpos : clipped.mesh.triangles.length ≠ 0 := by simpa using hcne
  -- one cap
  have one : ∀ f ∈ sixFaces, ∃ c cap, E.cap clipped lo up switch f.1 f.2 = .ok c ∧ c.check = true ∧ c.visit = some cap ∧
      IsCap lo up (10 * E.zt) f cap ∧ surfaceArea2 cap = V3.scale (2 * area f) (outwardOf f.1 f.2) ∧
        ∀ t ∈ cap, ∃ k, 0 ≤ k ∧ triangleArea2 t.p1 t.p2 t.p3 = V3.scale k (outwardOf f.1 f.2) := by
    intro f hfm
    obtain ⟨P, es, hP, S, e1, e2⟩ := face_edges hE hok switch hfm
    have htol : P.tol = 10 * snap := by rw [S.tol, hsnap]; ring
    have hs : P.SortsTop := by
      have : P.sortE = E.sortE := by
        unfold Env.face at hP
        split at hP
        · exact absurd hP (by simp)
        · cases hP; rfl
      intro vs l
      rw [this]
      exact hsort vs l
    obtain ⟨hgen, mid, vs, tops, U, N, b1, b2, b3, b4, b5, b6, b7, b8⟩ := hf f hfm P es hP e2
    obtain ⟨c, cap, r1, r2, r3, r4, r5⟩ := Plane.C73_section S.sound hs S.axes
      (by rw [S.lower, S.upper, S.maxd, htol]; rcases P.d1 with _ | _ | d <;> simp only [V3.get] <;> linarith)
      (by rw [S.lower, S.upper]; rcases P.d1 with _ | _ | d <;> simp only [V3.get] <;> linarith)
      (by rw [S.lower, S.maxd]; rcases P.d2 with _ | _ | d <;> simp only [V3.get] <;> assumption) hgen b1 b2 b3 b4 b5 b6 b7
    have hout : P.outward = outwardOf f.1 f.2 := by
      have := normal_outward S.axes
      rw [S.direction, S.side] at this
      rw [← this]
      rcases Plane.axes_cases S.axes with h | h | h | h | h | h <;> obtain ⟨_, k1, k2, k3⟩ := h <;>
        simp [Plane.Params.normal, Plane.Params.outward, k3, V3.set]
    have hcap : E.cap clipped lo up switch f.1 f.2 = .ok c.mesh := by
      unfold Env.cap
      rw [hP]
      dsimp only
      rw [e1]
      dsimp only
      rw [r1]
    obtain ⟨-, cap', v1, v2, -⟩ := cap_spec hE hok (by linarith) (by linarith) (by linarith) hcap
    rw [r3] at v1
    cases v1
    refine ⟨c.mesh, cap, hcap, r2, r3, v2, ?_, ?_⟩
    · rw [← hout, b8]; exact r5
    · intro t ht
      rw [← hout]
      exact (r4 t ht).2.2.2.2
  have all : ∀ fs : List (Nat × Bool), (∀ f ∈ fs, f ∈ sixFaces) → ∃ ms caps, E.caps clipped lo up switch fs = .ok ms ∧
      List.Forall₂ (fun (m : Mesh K) ts => m.check = true ∧ m.visit = some ts) ms caps ∧
      List.Forall₂ (fun f cap => IsCap lo up (10 * E.zt) f cap ∧ surfaceArea2 cap = V3.scale (2 * area f) (outwardOf f.1 f.2) ∧
        ∀ t ∈ cap, ∃ k, 0 ≤ k ∧ triangleArea2 t.p1 t.p2 t.p3 = V3.scale k (outwardOf f.1 f.2)) fs caps := by
    intro fs
    induction fs with
    | nil => intro _; exact ⟨[], [], rfl, .nil, .nil⟩
    | cons f fs ih =>
      intro h
      obtain ⟨c, cap, k1, k2, k3, k4⟩ := one f (h f (by simp))
      obtain ⟨ms, caps, j1, j2, j3⟩ := ih fun x hx => h x (by simp [hx])
      exact ⟨c :: ms, cap :: caps, by simp only [Env.caps, k1, j1], .cons ⟨k2, k3⟩ j2, .cons k4 j3⟩
  obtain ⟨ms, caps, j1, j2, j3⟩ := all faces fun f hf => hf
  obtain ⟨m1, k1, k2, k3⟩ := appendAll_spec ms clipped.mesh ts caps hok.valid h1 j2
  obtain ⟨m2, ts', r1, r2, r3, r4, -⟩ := MeshUtil.C36_refine E.norm hE.zt_pos.le n k2 k3
  have hb : E.build clipped lo up n switch = .ok m2 := by
    unfold Env.build
    rw [if_pos hpos, j1]
    dsimp only
    rw [k1]
    dsimp only
    rw [r1 (n + 1) (by omega)]
  refine ⟨m2, ts, caps, ts', hb, r2, h1, r3, r4, j3, ?_, ?_⟩
  · rw [MeshUtil.refinement_area r4]
    have hsum : ∀ (a b : List (Tri K)), surfaceArea2 (a ++ b) = sumV [surfaceArea2 a, surfaceArea2 b] := by
      intro a b; simp [surfaceArea2, sumV]
    have key : ∀ (fs : List (Nat × Bool)) (caps : List (List (Tri K))),
        List.Forall₂ (fun f cap => surfaceArea2 cap = V3.scale (2 * area f) (outwardOf f.1 f.2)) fs caps →
        surfaceArea2 caps.flatten = sumV (fs.map fun f => V3.scale (2 * area f) (outwardOf f.1 f.2)) := by
      intro fs caps h
      induction h with
      | nil => rfl
      | cons h _ ih => rw [List.flatten_cons, hsum, ih, h]; simp [sumV]
    rw [hsum, key sixFaces caps (j3.imp fun _ _ h => h.2.1)]
    simp [sumV]
  · rw [MeshUtil.refinement_volume r4]
    have hsum : ∀ (a b : List (Tri K)), volume6 (a ++ b) = volume6 a + volume6 b := by
      intro a b; simp [volume6]
    have key : ∀ (fs : List (Nat × Bool)) (caps : List (List (Tri K))), (∀ f ∈ fs, f ∈ sixFaces) →
        List.Forall₂ (fun f cap => IsCap lo up (10 * E.zt) f cap ∧ surfaceArea2 cap = V3.scale (2 * area f) (outwardOf f.1 f.2)) fs caps →
        volume6 caps.flatten = (fs.map fun f => 2 * area f * offset lo up f).sum := by
      intro fs caps hfs h
      induction h with
      | nil => rfl
      | cons h _ ih =>
        rw [List.flatten_cons, hsum, ih (fun f hf => hfs f (by simp [hf])), cap_volume (hfs _ (by simp)) h.1 h.2]
        simp
    rw [hsum, key sixFaces caps (fun _ h => h) (j3.imp fun _ _ h => ⟨h.1, h.2.1⟩)]

/-! ### Example: the plane z = 1/2 in the unit cell -/

omit [IsStrictOrderedRing K] in
theorem faceEdges_unique {m : ClippedMesh K} {k : Nat} {es : List (Plane.Given K)} (h : FaceEdges m k es) : edgesOn m k = some es := by
  unfold FaceEdges at h
  unfold edgesOn
  generalize m.edges k = rs at h
  induction h with
  | nil => rfl
  | cons h _ ih =>
    rw [List.mapM_cons, h.1, h.2.1, h.2.2]
    dsimp only
    rw [ih]
    rfl

omit [IsStrictOrderedRing K] in
theorem section_nil (P : Plane.Params K) : P.Section [] [] := by
  constructor <;> simp [Plane.abscissas]

/-- A single edge that faces up bounds the region below it. -/
theorem section_single (P : Plane.Params K) (hP : 0 < P.tol) (u : Plane.P2 K × Plane.P2 K) (h : 10 * P.tol < u.2.x - u.1.x)
    (hl : P.lo.get P.d2 ≤ u.1.y ∧ P.lo.get P.d2 ≤ u.2.y) : P.Section [u] [] := by
  have hlt : u.1.x < u.2.x := by linarith
  have h' : 10 * P.tol < |u.2.x - u.1.x| := by rw [abs_of_pos (by linarith)]; exact h
  constructor
  · simp
  · simpa using hlt
  · simpa using hl
  · intro x hx y hy
    simp only [Plane.abscissas, List.append_nil, List.flatMap_cons, List.flatMap_nil, List.mem_cons, List.not_mem_nil, or_false] at hx hy
    rcases hx with rfl | rfl <;> rcases hy with rfl | rfl
    · exact Or.inl rfl
    · right; rw [abs_sub_comm]; exact h'
    · right; exact h'
    · exact Or.inl rfl
  · intro e he f hf hne
    simp only [List.append_nil, List.mem_singleton] at he hf
    exact absurd (he.trans hf.symm) hne
  · intro e he f hf hne
    simp only [List.append_nil, List.mem_singleton] at he hf
    exact absurd (he.trans hf.symm) hne
  · intro e he f hf hne
    simp only [List.append_nil, List.mem_singleton] at he hf
    exact absurd (he.trans hf.symm) hne
  · intro e he f hf; exact absurd hf (by simp)
  · intro e he f hf; exact absurd hf (by simp)
  · intro f hf; exact absurd hf (by simp)
  · intro e he g hg x _ _ _ hlt
    simp only [List.mem_singleton] at he hg
    rw [he, hg] at hlt
    exact absurd hlt (lt_irrefl _)
  · intro f hf; exact absurd hf (by simp)

/-- The example of C77 with a sort that sorts by the place on the upper side. -/
def exEnvT : Env ℚ := { exEnv with sortE := fun vs es => es.insertionSort fun a b =>
  (vs.getD (if a.on1 then a.v1 else a.v2) ⟨0, 0⟩).x ≤ (vs.getD (if b.on1 then b.v1 else b.v2) ⟨0, 0⟩).x }

theorem exEnvT_sound : exEnvT.Sound :=
  ⟨exEnv_sound.zt_pos, exEnv_sound.snaptol_pos, exEnv_sound.bal, fun _ _ => List.perm_insertionSort _ _, exEnv_sound.sortP, exEnv_sound.sortP_sorted⟩

theorem exEnvT_sortsTop : exEnvT.SortsTop := by
  intro vs es _
  exact List.pairwise_insertionSort _ _

/-- The set-up of the faces of the unit cell. -/
def exFace (d1 d2 d3 : Nat) (upper : Bool) : Plane.Params ℚ :=
  ⟨d1, d2, d3, upper, false, ⟨0, 0, 0⟩, ⟨1, 1, 1⟩, relativeSnapTolerance ⟨0, 0, 0⟩ ⟨1, 1, 1⟩ exEnvT.snaptol, exEnvT.zt, exEnvT.maxd,
    fun p => decide (p.z < 1 / 2), exEnvT.bal, exEnvT.sortE, exEnvT.sortP⟩

/-- The area of the section of the half-space z < 1/2 with the faces. -/
def exArea (f : Nat × Bool) : ℚ := if f.1 = 2 then (if f.2 then 0 else 1) else 1 / 2

/-- The edges on the faces of the clipped plane. -/
def exEdges : List (List (Plane.Given ℚ)) :=
  [[(⟨0, 1, 1 / 2⟩, ⟨0, 0, 1 / 2⟩, ⟨0, 0, 1⟩)], [(⟨1, 0, 1 / 2⟩, ⟨1, 1, 1 / 2⟩, ⟨0, 0, 1⟩)], [(⟨0, 0, 1 / 2⟩, ⟨1, 0, 1 / 2⟩, ⟨0, 0, 1⟩)],
   [(⟨1, 1, 1 / 2⟩, ⟨0, 1, 1 / 2⟩, ⟨0, 0, 1⟩)], [], []]

theorem exFace_x (upper : Bool) {es : List (Plane.Given ℚ)} (hes : es = if upper then exEdges.getD 1 [] else exEdges.getD 0 []) :
    (exFace 1 2 0 upper).Bounds es (1 / 2) := by
  have hg : (exFace 1 2 0 upper).General es := by
    subst hes
    cases upper
    · exact ⟨by unfold Plane.Separated; decide +kernel, by decide +kernel, by decide +kernel, by decide +kernel, by decide +kernel,
        by intro o; cases o <;> decide +kernel⟩
    · exact ⟨by unfold Plane.Separated; decide +kernel, by decide +kernel, by decide +kernel, by decide +kernel, by decide +kernel,
        by intro o; cases o <;> decide +kernel⟩
  refine ⟨hg, [], [(0, true), (1, false)], [], [(⟨0, 1 / 2⟩, ⟨1, 1 / 2⟩)], [], ?_, ?_, ?_, ?_, ?_, ?_, ?_, ?_⟩
  · subst hes
    cases upper <;> exact ⟨by decide +kernel, by decide +kernel, by decide +kernel⟩
  · subst hes
    cases upper <;>
      refine ⟨fun h => absurd ⟨by decide +kernel, by decide +kernel, rfl⟩ h, fun _ => ⟨1 / 2, ⟨by decide +kernel, ?_, Or.inr ⟨⟨0, 1 / 2⟩, Or.inl (by decide +kernel), rfl⟩⟩,
        by decide +kernel⟩⟩ <;> rintro p (hp | hp) <;> revert p <;> decide +kernel
  · subst hes; cases upper <;> decide +kernel
  · subst hes; cases upper <;> decide +kernel
  · exact section_single _ (by cases upper <;> decide +kernel) _ (by cases upper <;> decide +kernel) (by cases upper <;> decide +kernel)
  · intro e he
    refine ⟨?_, fun _ _ _ hf => absurd hf (by simp)⟩
    subst hes
    revert e
    cases upper <;> decide +kernel
  · exact ⟨by decide +kernel, fun _ _ _ hf => absurd hf (by simp)⟩
  · cases upper <;> decide +kernel

theorem exFace_y (upper : Bool) {es : List (Plane.Given ℚ)} (hes : es = if upper then exEdges.getD 3 [] else exEdges.getD 2 []) :
    (exFace 2 0 1 upper).Bounds es (1 / 2) := by
  have hg : (exFace 2 0 1 upper).General es := by
    subst hes
    cases upper
    · exact ⟨by unfold Plane.Separated; decide +kernel, by decide +kernel, by decide +kernel, by decide +kernel, by decide +kernel,
        by intro o; cases o <;> decide +kernel⟩
    · exact ⟨by unfold Plane.Separated; decide +kernel, by decide +kernel, by decide +kernel, by decide +kernel, by decide +kernel,
        by intro o; cases o <;> decide +kernel⟩
  refine ⟨hg, [(1 / 2, false)], [(0, true), (1 / 2, false), (1, false)], [(⟨0, 1⟩, ⟨1 / 2, 1⟩)], [(⟨0, 1⟩, ⟨1 / 2, 1⟩)], [], ?_, ?_, ?_, ?_, ?_, ?_, ?_, ?_⟩
  · subst hes
    cases upper <;> exact ⟨by decide +kernel, by decide +kernel, by decide +kernel⟩
  · subst hes
    cases upper <;> exact ⟨fun _ => by decide +kernel, fun h => absurd h.2.2 (by simp)⟩
  · subst hes; cases upper <;> decide +kernel
  · subst hes; cases upper <;> decide +kernel
  · exact section_single _ (by cases upper <;> decide +kernel) _ (by cases upper <;> decide +kernel) (by cases upper <;> decide +kernel)
  · intro e he
    refine ⟨?_, fun _ _ _ hf => absurd hf (by simp)⟩
    subst hes
    revert e
    cases upper <;> decide +kernel
  · exact ⟨by decide +kernel, fun _ _ _ hf => absurd hf (by simp)⟩
  · cases upper <;> decide +kernel

theorem exFace_z (upper : Bool) : (exFace 0 1 2 upper).Bounds [] (if upper then 0 else 1) := by
  have hg : (exFace 0 1 2 upper).General [] := by
    cases upper
    · exact ⟨by unfold Plane.Separated; decide +kernel, by decide +kernel, by decide +kernel, by decide +kernel, by decide +kernel,
        by intro o; cases o <;> decide +kernel⟩
    · exact ⟨by unfold Plane.Separated; decide +kernel, by decide +kernel, by decide +kernel, by decide +kernel, by decide +kernel,
        by intro o; cases o <;> decide +kernel⟩
  refine ⟨hg, [], [(0, true), (1, false)], if upper then [] else [(⟨0, 1⟩, ⟨1, 1⟩)], if upper then [] else [(⟨0, 1⟩, ⟨1, 1⟩)], [], ?_, ?_, ?_, ?_, ?_, ?_, ?_, ?_⟩
  · cases upper <;> exact ⟨by decide +kernel, by decide +kernel, by decide +kernel⟩
  · cases upper <;>
      refine ⟨fun h => absurd ⟨by decide +kernel, by decide +kernel, rfl⟩ h, fun _ => ⟨0, ⟨by decide +kernel, ?_, Or.inl (by decide +kernel)⟩,
        by decide +kernel⟩⟩ <;> rintro p (hp | hp) <;> revert p <;> decide +kernel
  · cases upper <;> decide +kernel
  · cases upper <;> decide +kernel
  · cases upper
    · exact section_single _ (by decide +kernel) _ (by decide +kernel) (by decide +kernel)
    · exact section_nil _
  · intro e he
    cases upper <;> exact absurd he (by simp [Plane.Params.ofOrient])
  · exact ⟨by decide +kernel, fun _ _ _ hf => absurd hf (by simp)⟩
  · cases upper <;> decide +kernel

/-- C77 is not empty: the plane is clipped, the faces are cut in regions, and the closed boundary is that of the lower half of the cell: six
times its volume is 3, and its area vector is zero. -/
theorem exClosed : ∃ g clipped closed ts', Query.new exNode exEnvT.maxd exMesh true = .ok g ∧
    BRep.clipTriangleMesh exEnvT.zt exEnvT.snaptol g ⟨0, 0, 0⟩ ⟨1, 1, 1⟩ = .ok clipped ∧ exEnvT.build clipped ⟨0, 0, 0⟩ ⟨1, 1, 1⟩ 40 false = .ok closed ∧
    closed.visit = some ts' ∧ surfaceArea2 ts' = ⟨0, 0, 0⟩ ∧ volume6 ts' = 3 := by
  have hrun : (match Query.new exNode exEnvT.maxd exMesh true with
    | .error _ => false
    | .ok g =>
      match BRep.clipTriangleMesh exEnvT.zt exEnvT.snaptol g ⟨0, 0, 0⟩ ⟨1, 1, 1⟩ with
      | .error _ => false
      | .ok c => ((List.range 6).all fun k => decide (edgesOn c k = exEdges[k]?)) && decide (c.mesh.triangles ≠ []) &&
          match c.mesh.visit with
          | none => false
          | some ts => decide (surfaceArea2 ts = ⟨0, 0, 2⟩ ∧ volume6 ts = 1)) = true := by decide +kernel
  cases hg : Query.new exNode exEnvT.maxd exMesh true with
  | error e => rw [hg] at hrun; exact absurd hrun (by simp)
  | ok g =>
    rw [hg] at hrun
    dsimp only at hrun
    cases hc : BRep.clipTriangleMesh exEnvT.zt exEnvT.snaptol g ⟨0, 0, 0⟩ ⟨1, 1, 1⟩ with
    | error e => rw [hc] at hrun; exact absurd hrun (by simp)
    | ok c =>
      rw [hc] at hrun
      dsimp only at hrun
      simp only [Bool.and_eq_true, List.all_eq_true, List.mem_range, decide_eq_true_eq] at hrun
      obtain ⟨⟨r1, r2⟩, r3⟩ := hrun
      obtain ⟨snap, hsnap⟩ : ∃ snap : ℚ, snap = 1 / 10 * max (max ((⟨1, 1, 1⟩ : V3 ℚ).x - (⟨0, 0, 0⟩ : V3 ℚ).x)
          (max ((⟨1, 1, 1⟩ : V3 ℚ).y - (⟨0, 0, 0⟩ : V3 ℚ).y) ((⟨1, 1, 1⟩ : V3 ℚ).z - (⟨0, 0, 0⟩ : V3 ℚ).z)) * exEnvT.snaptol) exEnvT.snaptol := ⟨_, rfl⟩
      have s1 : 10 * exEnvT.zt ≤ snap := by rw [hsnap]; decide +kernel
      have s2 : 2 * snap ≤ (1 : ℚ) - 0 := by rw [hsnap]; decide +kernel
      have s3 : (1 : ℚ) - 0 + 20 * snap ≤ exEnvT.maxd := by rw [hsnap]; decide +kernel
      have s4 : -exEnvT.maxd ≤ (0 : ℚ) := by decide +kernel
      obtain ⟨closed, ts, caps, ts', k1, -, k3, k4, -, -, k7, k8⟩ := C77_regions
        exEnvT_sound exEnvT_sortsTop (by decide +kernel) (by decide +kernel) (by decide +kernel) hg
        hsnap s1 s2 s2 s2 s3 s3 s3 s4 s4 s4 hc r2 40 false (area := exArea) (by
          intro f hf P es hP hes
          have hes := faceEdges_unique hes
          simp only [sixFaces, List.mem_cons, List.not_mem_nil, or_false] at hf
          rcases hf with rfl | rfl | rfl | rfl | rfl | rfl
          · cases hP
            rw [r1 _ (by decide)] at hes
            exact exFace_x false (by cases hes; rfl)
          · cases hP
            rw [r1 _ (by decide)] at hes
            exact exFace_x true (by cases hes; rfl)
          · cases hP
            rw [r1 _ (by decide)] at hes
            exact exFace_y false (by cases hes; rfl)
          · cases hP
            rw [r1 _ (by decide)] at hes
            exact exFace_y true (by cases hes; rfl)
          · cases hP
            rw [r1 _ (by decide)] at hes
            cases hes
            exact exFace_z false
          · cases hP
            rw [r1 _ (by decide)] at hes
            cases hes
            exact exFace_z true)
      rw [k3] at r3
      simp only [decide_eq_true_eq] at r3
      refine ⟨g, c, closed, ts', rfl, hc, k1, k4, ?_, ?_⟩
      · rw [k7, r3.1]; decide +kernel
      · rw [k8, r3.2]; decide +kernel

end QuESo.Domain
