import Verif.Proofs.TrimmedDomain
import Verif.Proofs.PlaneGraph
import Verif.Props.BRep
import Verif.Props.PlaneDomain

/-!
# C77: the closed boundary of a trimmed cell
-/
namespace QuESo.Domain
open QuESo.AABBTree (Fault Node)
open QuESo.Spec QuESo.Clip QuESo.GQ
variable {K : Type} [Field K] [LinearOrder K] [IsStrictOrderedRing K]

/-- Clipping records only edges on the faces of the box. -/
theorem clip_edges {node : Node K} {maxd zt snaptol snap : K} (hz : 0 ≤ zt) (hs : 0 < snaptol) {m : Mesh K} (hm : m.check = true)
    (hne : m.triangles ≠ []) (hn : m.triangles.length ≤ 2 ^ 30) {closed : Bool} {g : Query K} (hg : Query.new node maxd m closed = .ok g) {lo up : V3 K}
    (hsnap : snap = 1 / 10 * max (max (up.x - lo.x) (max (up.y - lo.y) (up.z - lo.z)) * snaptol) snaptol) (hzt : 10 * zt ≤ snap)
    (hx : 2 * snap ≤ up.x - lo.x) (hy : 2 * snap ≤ up.y - lo.y) (hz' : 2 * snap ≤ up.z - lo.z) {out : ClippedMesh K}
    (hout : BRep.clipTriangleMesh zt snaptol g lo up = .ok out) :
    EdgesOk zt lo up out ∧ ∃ ts, out.mesh.visit = some ts ∧ IsClipped zt snap m lo up ts := by
  have h0 : 0 < snap := by
    have : snaptol ≤ max (max (up.x - lo.x) (max (up.y - lo.y) (up.z - lo.z)) * snaptol) snaptol := le_max_right _ _
    rw [hsnap]; linarith
  obtain ⟨g', ids, h1, h2, h3, h4⟩ := C55_triangle_ids node maxd m hm hne hn closed lo up snap h0.le hx hy hz'
  rw [hg] at h1
  cases h1
  obtain ⟨out', ts, g1, g2, g3, g4, g5⟩ := BRep.clip_pipeline hz h0 le_rfl hzt hm lo up ids h3 h4
  obtain ⟨cs, t, k1, -⟩ := new_spec node maxd hm hn closed
  rw [k1] at hg
  cases hg
  simp only [BRep.clipTriangleMesh, relativeSnapTolerance, ← hsnap, h2, g1, g2] at hout
  cases hout
  refine ⟨edgesOk_clipLoop hz lo up ids _ _ ?_ (edgesOk_empty zt lo up) g1, ts, g4, g5⟩
  intro i hi s hs'
  obtain ⟨c, hc, q, q1, q2⟩ := (h4 i).1 hi
  rw [BRep.triangle_corners hs'] at hc
  cases hc
  exact BRep.overlap_of_point h0 q1 q2

/-- C77: if a surface is clipped by a cell that is not tiny and the clipped surface is not empty, the closed boundary that is built from it is a valid
mesh.  It consists of the clipped surface and one cap for each of the six faces, divided until there are enough
triangles or none has an area.  Each cap lies exactly in the plane of its face, stays in the cell up to ten zero tolerances,
has the outer normal of the face, and comes from the edges at which the clipped surface meets this face. -/
theorem C77_closed {E : Env K} (hE : E.Sound) {node : Node K} {m : Mesh K} (hm : m.check = true) (hne : m.triangles ≠ [])
    (hn : m.triangles.length ≤ 2 ^ 30) {cl : Bool} {g : Query K} (hg : Query.new node E.maxd m cl = .ok g) {lo up : V3 K} {snap : K}
    (hsnap : snap = 1 / 10 * max (max (up.x - lo.x) (max (up.y - lo.y) (up.z - lo.z)) * E.snaptol) E.snaptol) (hzt : 10 * E.zt ≤ snap)
    (hx : 2 * snap ≤ up.x - lo.x) (hy : 2 * snap ≤ up.y - lo.y) (hz : 2 * snap ≤ up.z - lo.z) {clipped : ClippedMesh K}
    (hc : BRep.clipTriangleMesh E.zt E.snaptol g lo up = .ok clipped) (hcne : clipped.mesh.triangles ≠ []) {n : Nat} {switch : Bool}
    {closed : Mesh K} (h : E.build clipped lo up n switch = .ok closed) : E.IsClosing n lo up clipped closed := by
  have hzt0 := hE.zt_pos
  obtain ⟨hok, ts, h1, -⟩ := clip_edges hE.zt_pos.le hE.snaptol_pos hm hne hn hg hsnap hzt hx hy hz hc
  exact build_spec hE hok (by linarith) (by linarith) (by linarith) (by simpa using hcne) h1 h

omit [IsStrictOrderedRing K] in
theorem onSurface_append (a b : List (Tri K)) (q : V3 K) : OnSurface (a ++ b) q ↔ OnSurface a q ∨ OnSurface b q := by
  unfold OnSurface
  simp only [List.mem_append]
  constructor
  · rintro ⟨t, h | h, k⟩
    · exact Or.inl ⟨t, h, k⟩
    · exact Or.inr ⟨t, h, k⟩
  · rintro (⟨t, h, k⟩ | ⟨t, h, k⟩)
    · exact ⟨t, Or.inl h, k⟩
    · exact ⟨t, Or.inr h, k⟩

/-- C77: the closed boundary has the points of the clipped surface and of the caps, and no others; its area vector and its signed volume are
the sums of those of the clipped surface and of the caps. -/
theorem C77_surface {E : Env K} {n : Nat} {lo up : V3 K} {clipped : ClippedMesh K} {closed : Mesh K} (h : E.IsClosing n lo up clipped closed) :
    ∃ ts caps ts', clipped.mesh.visit = some ts ∧ closed.visit = some ts' ∧ List.Forall₂ (IsCap lo up (10 * E.zt)) sixFaces caps ∧
      (∀ q, OnSurface ts' q ↔ OnSurface ts q ∨ ∃ c ∈ caps, OnSurface c q) ∧
      surfaceArea2 ts' = sumV (surfaceArea2 ts :: caps.map surfaceArea2) ∧ volume6 ts' = volume6 ts + (caps.map volume6).sum := by
  obtain ⟨ts, caps, ts', h1, h2, h3, h4, -⟩ := h.parts
  refine ⟨ts, caps, ts', h1, h2, h3.imp fun _ _ h => h.1, ?_, ?_, ?_⟩
  · intro q
    rw [MeshUtil.refinement_onSurface h4, onSurface_append]
    refine or_congr Iff.rfl ?_
    unfold OnSurface
    constructor
    · rintro ⟨t, ht, k⟩
      obtain ⟨c, hc, ht⟩ := List.mem_flatten.1 ht
      exact ⟨c, hc, t, ht, k⟩
    · rintro ⟨c, hc, t, ht, k⟩
      exact ⟨t, List.mem_flatten.2 ⟨c, hc, ht⟩, k⟩
  · rw [MeshUtil.refinement_area h4]
    clear h3 h4
    unfold surfaceArea2
    rw [List.map_append]
    have : ∀ (a b : List (V3 K)), sumV (a ++ b) = sumV [sumV a, sumV b] := by
      intro a b; simp [sumV]
    rw [this]
    have key : ∀ caps : List (List (Tri K)), sumV (caps.flatten.map fun t => triangleArea2 t.p1 t.p2 t.p3) =
        sumV (caps.map fun ts => sumV (ts.map fun t => triangleArea2 t.p1 t.p2 t.p3)) := by
      intro caps
      induction caps with
      | nil => rfl
      | cons c caps ih =>
        rw [List.flatten_cons, List.map_append, this, ih, List.map_cons]
        simp [sumV]
    rw [key]
    simp [sumV]
  · rw [MeshUtil.refinement_volume h4]
    clear h3 h4
    unfold volume6
    rw [List.map_append, List.sum_append]
    congr 1
    induction caps with
    | nil => rfl
    | cons c caps ih => rw [List.flatten_cons, List.map_append, List.sum_append, ih, List.map_cons, List.sum_cons]

/-- C77 (safety): building the closed boundary cannot fail if on no face all of more than two edges face upwards.  Missing: the case in which
three or more edges of a face all face upwards and the code may read freed memory (see C72). -/
theorem C77_safe_partial {E : Env K} (hE : E.Sound) {node : Node K} {m : Mesh K} (hm : m.check = true) (hne : m.triangles ≠ [])
    (hn : m.triangles.length ≤ 2 ^ 30) {cl : Bool} {g : Query K} (hg : Query.new node E.maxd m cl = .ok g) {lo up : V3 K} {snap : K}
    (hsnap : snap = 1 / 10 * max (max (up.x - lo.x) (max (up.y - lo.y) (up.z - lo.z)) * E.snaptol) E.snaptol) (hzt : 10 * E.zt ≤ snap)
    (hx : 2 * snap ≤ up.x - lo.x) (hy : 2 * snap ≤ up.y - lo.y) (hz : 2 * snap ≤ up.z - lo.z)
    (hmx : up.x - lo.x + 20 * snap ≤ E.maxd) (hmy : up.y - lo.y + 20 * snap ≤ E.maxd) (hmz : up.z - lo.z + 20 * snap ≤ E.maxd) {clipped : ClippedMesh K}
    (hc : BRep.clipTriangleMesh E.zt E.snaptol g lo up = .ok clipped) (n : Nat) (switch : Bool)
    (hf : ∀ f ∈ sixFaces, ∀ P es, E.SetUp clipped.mesh lo up f P → FaceEdges clipped (2 * f.1 + f.2.toNat) es →
      (∃ e ∈ es, P.orient e.1 e.2.1 e.2.2 ≠ some .positive) ∨ es.length ≤ 2) :
    ∃ closed, E.build clipped lo up n switch = .ok closed := by
  have hzt0 := hE.zt_pos
  obtain ⟨hok, ts, h1, -⟩ := clip_edges hE.zt_pos.le hE.snaptol_pos hm hne hn hg hsnap hzt hx hy hz hc
  by_cases h0 : clipped.mesh.triangles.length ≠ 0
  swap
  · exact ⟨clipped.mesh, by unfold Env.build; rw [if_neg h0]⟩
  have one : ∀ f ∈ sixFaces, ∃ c, E.cap clipped lo up switch f.1 f.2 = .ok c := by
    intro f hfm
    have hface : ∃ P, E.face clipped.mesh lo up switch f.1 f.2 = .ok P := by
      simp only [sixFaces, List.mem_cons, List.not_mem_nil, or_false] at hfm
      rcases hfm with rfl | rfl | rfl | rfl | rfl | rfl <;> exact ⟨_, rfl⟩
    obtain ⟨P, hP⟩ := hface
    have S := face_spec hE hP
    obtain ⟨es, e1, e2, e3⟩ := edgesOn_some hok P.axis
    have hax : P.axis = 2 * f.1 + f.2.toNat := by
      unfold Plane.Params.axis
      rw [S.direction, S.side]
      cases f.2 <;> simp <;> omega
    have htol : P.tol = 10 * snap := by rw [S.tol, hsnap]; ring
    obtain ⟨c, hrun⟩ := Plane.C72_safe_partial S.sound es
      (by
        intro q hq
        rw [S.lower, S.upper, htol]
        unfold Plane.Params.points at hq
        obtain ⟨e, he, hq⟩ := List.mem_flatMap.1 hq
        obtain ⟨-, b1, b2⟩ := e3 e he
        simp only [List.mem_cons, List.not_mem_nil, or_false] at hq
        rcases hq with rfl | rfl
        · have := inBox_get b1 P.d1
          exact ⟨by simp only [Plane.Params.proj]; linarith [this.1], by simp only [Plane.Params.proj]; linarith [this.2]⟩
        · have := inBox_get b2 P.d1
          exact ⟨by simp only [Plane.Params.proj]; linarith [this.1], by simp only [Plane.Params.proj]; linarith [this.2]⟩)
      (by
        rw [S.lower, S.upper, S.maxd, htol]
        rcases P.d1 with _ | _ | d <;> simp only [V3.get] <;> linarith)
      (by
        rw [S.lower, S.upper]
        exact get_le (by linarith) (by linarith) (by linarith) _)
      (hf f hfm P es S (by rw [← hax]; exact e2))
    refine ⟨c.mesh, ?_⟩
    unfold Env.cap
    rw [hP]
    dsimp only
    rw [e1]
    dsimp only
    rw [hrun]
  have all : ∀ fs : List (Nat × Bool), (∀ f ∈ fs, f ∈ sixFaces) → ∃ ms, E.caps clipped lo up switch fs = .ok ms := by
    intro fs
    induction fs with
    | nil => intro _; exact ⟨[], rfl⟩
    | cons f fs ih =>
      intro h
      obtain ⟨c, hc⟩ := one f (h f (by simp))
      obtain ⟨ms, hms⟩ := ih fun x hx => h x (by simp [hx])
      exact ⟨c :: ms, by simp only [Env.caps, hc, hms]⟩
  obtain ⟨ms, hms⟩ := all faces fun f hf => hf
  obtain ⟨closed, h, -⟩ := build_of_caps hE hok (by linarith) (by linarith) (by linarith) n h0 hms h1
  exact ⟨closed, h⟩

/-! ## The trimmed domain -/

/-- Attempts that fail can be replaced by attempts that find nothing. -/
def forgive {D : Type} (trial : V3 K → V3 K → Bool → Except Fault (Option (BRep.Trial K D))) (l u : V3 K) (s : Bool) :
    Except Fault (Option (BRep.Trial K D)) :=
  match trial l u s with
  | .error _ => .ok none
  | .ok x => .ok x

omit [IsStrictOrderedRing K] in
theorem trimLoop_forgive {D : Type} (trial : V3 K → V3 K → Bool → Except Fault (Option (BRep.Trial K D))) (volume minRatio snap : K) (rl ru : Nat → V3 K)
    (neglect : Bool) : ∀ (fuel it : Nat) (s : BRep.TrimState K D) (r : Option D), BRep.trimLoop trial volume minRatio snap rl ru neglect fuel it s = .ok r →
    BRep.trimLoop (forgive trial) volume minRatio snap rl ru neglect fuel it s = .ok r := by
  intro fuel
  induction fuel with
  | zero => intro it s r h; simp [BRep.trimLoop] at h
  | succ fuel ih =>
    intro it s r h
    rw [BRep.trimLoop] at h ⊢
    split at h
    · rename_i hit
      rw [if_pos hit]
      cases ht : trial s.lower s.upper s.switch with
      | error e => rw [ht] at h; exact absurd h (by simp)
      | ok found =>
        rw [ht] at h
        have hf : forgive trial s.lower s.upper s.switch = .ok found := by unfold forgive; rw [ht]
        rw [hf]
        dsimp only at h ⊢
        have rest : ∀ s1 : BRep.TrimState K D, (if s1.switch = true then
              BRep.trimLoop trial volume minRatio snap rl ru neglect fuel (it + 1) { s1 with switch := false }
            else BRep.trimLoop trial volume minRatio snap rl ru neglect fuel it { s1 with switch := true }) = .ok r →
            (if s1.switch = true then
              BRep.trimLoop (forgive trial) volume minRatio snap rl ru neglect fuel (it + 1) { s1 with switch := false }
            else BRep.trimLoop (forgive trial) volume minRatio snap rl ru neglect fuel it { s1 with switch := true }) = .ok r := by
          intro s1 h1
          split at h1
          · rename_i hsw; rw [if_pos hsw]; exact ih _ _ _ h1
          · rename_i hsw; rw [if_neg hsw]; exact ih _ _ _ h1
        cases found with
        | none => exact rest s h
        | some t =>
          dsimp only at h ⊢
          cases hx : BRep.examine volume minRatio snap (rl it) (ru it) t s with
          | inl x => rw [hx] at h; exact h
          | inr s1 => rw [hx] at h; exact rest s1 h
    · rename_i hit
      rw [if_neg hit]
      exact h

/-- C77: when an attempt finds nothing.  This is so exactly if nothing of the surface is left after clipping by the box; then no
point of the surface is inside the box by more than the tolerance.  No other cell is dropped by an attempt. -/
theorem C77_attempt {E : Env K} (hE : E.Sound) {node : Node K} {m : Mesh K} (hm : m.check = true) (hne : m.triangles ≠ [])
    (hn : m.triangles.length ≤ 2 ^ 30) {cl : Bool} {g : Query K} (hg : Query.new node E.maxd m cl = .ok g) {lo up : V3 K} {snap : K}
    (hsnap : snap = 1 / 10 * max (max (up.x - lo.x) (max (up.y - lo.y) (up.z - lo.z)) * E.snaptol) E.snaptol) (hzt : 10 * E.zt ≤ snap)
    (hx : 2 * snap ≤ up.x - lo.x) (hy : 2 * snap ≤ up.y - lo.y) (hz : 2 * snap ≤ up.z - lo.z) {n : Nat} {switch : Bool}
    {found : Option (BRep.Trial K (Trimmed K))} (h : E.trial g n lo up switch = .ok found) :
    ∃ clipped ts, BRep.clipTriangleMesh E.zt E.snaptol g lo up = .ok clipped ∧ clipped.mesh.visit = some ts ∧ (found = none ↔ ts = []) ∧
      (found = none → ∀ i s q, m.triangle i = some s → InTriangle s.p1 s.p2 s.p3 q → ¬ DeepInBox lo up snap q) := by
  unfold Env.trial at h
  split at h
  · exact absurd h (by simp)
  rename_i clipped hclip
  obtain ⟨-, ts, c1, c2⟩ := clip_edges hE.zt_pos.le hE.snaptol_pos hm hne hn hg hsnap hzt hx hy hz hclip
  have hlen := (IO.visit_spec c1).1
  have hiff : found = none ↔ ts = [] := by
    split at h
    · rename_i hpos
      have hts : ts ≠ [] := by
        rintro rfl
        simp only [List.length_nil] at hlen
        omega
      split at h
      · exact absurd h (by simp)
      split at h
      · cases h; simp [hts]
      · exact absurd h (by simp)
    · rename_i hpos
      cases h
      have : ts = [] := List.length_eq_zero_iff.1 (by omega)
      simp [this]
  refine ⟨clipped, ts, hclip, c1, hiff, ?_⟩
  intro hf i s q hi hq hd
  obtain ⟨pieces, k1, k2⟩ := c2
  rw [hiff.1 hf, List.nil_perm] at k1
  obtain ⟨t, ht, -⟩ := (k2 i s hi).covered q hq hd
  have hlt := corners_lt (BRep.triangle_corners hi)
  have : t ∈ (List.range m.triangles.length).flatMap pieces := List.mem_flatMap.2 ⟨i, List.mem_range.2 hlt, ht⟩
  rw [k1] at this
  simp at this

/-- C77: what a trimmed domain is.  If one is returned, it was built in a box that contains the cell and exceeds it by at most 13000 relative
snap tolerances.  Its clipped mesh is the surface clipped by this box, its closed mesh the closed boundary built from it, the
volume of the closed mesh is more than the required part of the volume of the cell, and its quality estimate is below one half, and
not above one percent if bad domains are to be neglected. -/
theorem C77_domain {E : Env K} (hE : E.Sound) {node : Node K} {m : Mesh K} (hm : m.check = true) (hne : m.triangles ≠ [])
    (hn : m.triangles.length ≤ 2 ^ 30) {cl : Bool} {g : Query K} (hg : Query.new node E.maxd m cl = .ok g) {rl ru : Nat → V3 K}
    (hrl : ∀ n, Rand (rl n)) (hru : ∀ n, Rand (ru n)) {lo up : V3 K} {tol : K}
    (htol : tol = max (max (up.x - lo.x) (max (up.y - lo.y) (up.z - lo.z)) * E.snaptol) E.snaptol)
    (hsmall : E.snaptol ≤ 1 / 26000) (hzt : 100 * E.zt ≤ E.snaptol) (hx : tol ≤ up.x - lo.x) (hy : tol ≤ up.y - lo.y) (hz : tol ≤ up.z - lo.z)
    {minRatio : K} {n : Nat} {neglect : Bool} {D : Trimmed K} (h : E.getTrimmedDomain g rl ru lo up minRatio n neglect = .ok (some D)) :
    ∃ lower upper ts volume epsilon, Grown lo up lower upper (13000 * tol) ∧ D.clipped.mesh.visit = some ts ∧ ts ≠ [] ∧
      (∃ depth, 0 < depth ∧ depth ≤ tol / 5 ∧ IsClipped E.zt depth m lower upper ts) ∧ E.IsClosing n lower upper D.clipped D.closed ∧
      MeshUtil.meshVolume E.norm D.closed = some volume ∧ MeshUtil.estimateQuality E.norm E.eps D.closed = some epsilon ∧
      volume / ((up.x - lo.x) * (up.y - lo.y) * (up.z - lo.z)) > minRatio ∧ epsilon < 1 / 2 ∧ (neglect = true → epsilon ≤ 1 / 100) := by
  have hs0 := hE.snaptol_pos
  have hz0 := hE.zt_pos
  have ht0 : 0 < tol := by rw [htol]; exact lt_of_lt_of_le hs0 (le_max_right _ _)
  unfold Env.getTrimmedDomain at h
  have h' : BRep.getTrimmedDomain (forgive (E.trial g n)) E.snaptol rl ru lo up minRatio neglect = .ok (some D) := by
    unfold BRep.getTrimmedDomain at h ⊢
    exact trimLoop_forgive _ _ _ _ _ _ _ _ _ _ _ h
  obtain ⟨res, tr, r1, -, r3, -, r5, r6⟩ := BRep.C58_choice (forgive (E.trial g n))
    (fun l u s => by unfold forgive; cases E.trial g n l u s <;> exact ⟨_, rfl⟩) E.snaptol (10 * tol) hs0.le rl ru hrl hru lo up
    (by rw [htol]) minRatio neglect
  rw [h'] at r1
  cases r1
  -- the attempt the domain comes from
  have key : ∃ a ∈ tr, ∃ t, a.found = some t ∧ t.domain = D ∧ t.volume / ((up.x - lo.x) * (up.y - lo.y) * (up.z - lo.z)) > minRatio ∧
      t.epsilon < 1 / 2 ∧ (neglect = true → t.epsilon ≤ 1 / 100) := by
    rcases r6 with ⟨init, a, t, k1, k2, k3, -, k5⟩ | ⟨-, -, ⟨k1, -⟩ | ⟨t, ⟨⟨a, ha, k1⟩, k2, k3, -⟩, k5, k6⟩⟩
    · split at k5
      · rename_i hv
        refine ⟨a, by rw [k1]; simp, t, k2, ?_, hv, lt_trans k3 (by norm_num), fun _ => (lt_trans k3 (by norm_num)).le⟩
        injection k5 with k5
        exact k5.symm
      · exact absurd k5 (by simp)
    · exact absurd k1 (by simp)
    · refine ⟨a, ha, t, k1, ?_, k2, k3, k6⟩
      injection k5 with k5
      exact k5.symm
  obtain ⟨a, ha, t, k1, k2, k3, k4, k5⟩ := key
  have htr : E.trial g n a.lower a.upper a.switch = .ok (some t) := by
    have := r3 a ha
    rw [k1] at this
    unfold forgive at this
    split at this
    · exact absurd this (by simp)
    · rename_i x hx; rw [hx]; exact this
  have hgr := r5 a ha
  have hgr' : Grown lo up a.lower a.upper (13000 * tol) := by
    have : (1300 : K) * (10 * tol) = 13000 * tol := by ring
    rw [this] at hgr; exact hgr
  obtain ⟨⟨⟨x1, x2⟩, ⟨y1, y2⟩, z1, z2⟩, ⟨x3, x4⟩, ⟨y3, y4⟩, z3, z4⟩ := hgr'
  -- the tolerance of the larger box
  have hM : max (max (a.upper.x - a.lower.x) (max (a.upper.y - a.lower.y) (a.upper.z - a.lower.z)) * E.snaptol) E.snaptol ≤ 2 * tol := by
    have hs : max (a.upper.x - a.lower.x) (max (a.upper.y - a.lower.y) (a.upper.z - a.lower.z)) ≤
        max (up.x - lo.x) (max (up.y - lo.y) (up.z - lo.z)) + 26000 * tol := by
      refine max_le ?_ (max_le ?_ ?_)
      · linarith [le_max_left (up.x - lo.x) (max (up.y - lo.y) (up.z - lo.z))]
      · linarith [le_max_right (up.x - lo.x) (max (up.y - lo.y) (up.z - lo.z)), le_max_left (up.y - lo.y) (up.z - lo.z)]
      · linarith [le_max_right (up.x - lo.x) (max (up.y - lo.y) (up.z - lo.z)), le_max_right (up.y - lo.y) (up.z - lo.z)]
    have b1 : max (up.x - lo.x) (max (up.y - lo.y) (up.z - lo.z)) * E.snaptol ≤ tol := by rw [htol]; exact le_max_left _ _
    have b2 : E.snaptol ≤ tol := by rw [htol]; exact le_max_right _ _
    refine max_le ?_ (by linarith)
    have b3 := mul_le_mul_of_nonneg_right hs hs0.le
    have b4 : tol * E.snaptol ≤ tol * (1 / 26000) := mul_le_mul_of_nonneg_left hsmall ht0.le
    nlinarith
  have hM0 : E.snaptol ≤ max (max (a.upper.x - a.lower.x) (max (a.upper.y - a.lower.y) (a.upper.z - a.lower.z)) * E.snaptol) E.snaptol := le_max_right _ _
  obtain ⟨snap, hsnap⟩ : ∃ snap, snap = 1 / 10 * max (max (a.upper.x - a.lower.x) (max (a.upper.y - a.lower.y) (a.upper.z - a.lower.z)) * E.snaptol) E.snaptol := ⟨_, rfl⟩
  have s1 : 10 * E.zt ≤ snap := by rw [hsnap]; linarith
  have s2 : snap ≤ tol / 5 := by rw [hsnap]; linarith
  have s3 : 2 * snap ≤ a.upper.x - a.lower.x := by linarith
  have s4 : 2 * snap ≤ a.upper.y - a.lower.y := by linarith
  have s5 : 2 * snap ≤ a.upper.z - a.lower.z := by linarith
  unfold Env.trial at htr
  split at htr
  · exact absurd htr (by simp)
  rename_i clipped hclip
  split at htr
  · rename_i hpos
    split at htr
    · exact absurd htr (by simp)
    rename_i closed hbuild
    split at htr
    · rename_i volume epsilon hv he
      cases htr
      cases k2
      have hcne : clipped.mesh.triangles ≠ [] := by intro h0; rw [h0] at hpos; simp at hpos
      obtain ⟨-, ts, c1, c2⟩ := clip_edges hz0.le hs0 hm hne hn hg hsnap s1 s3 s4 s5 hclip
      have c3 := C77_closed hE hm hne hn hg hsnap s1 s3 s4 s5 hclip hcne hbuild
      refine ⟨a.lower, a.upper, ts, volume, epsilon, ⟨⟨⟨x1, x2⟩, ⟨y1, y2⟩, z1, z2⟩, ⟨x3, x4⟩, ⟨y3, y4⟩, z3, z4⟩, c1, ?_, ⟨snap, by linarith, s2, c2⟩, c3, hv, he, k3, k4, k5⟩
      rintro rfl
      have : clipped.mesh.triangles.length = 0 := by
        have := (IO.visit_spec c1).1
        simpa using this.symm
      omega
    · exact absurd htr (by simp)
  · exact absurd htr (by simp)

/-! ## A concrete case: the plane z = 1/2 in the unit cell -/

/-- A triangle in the plane z = 1/2 around the unit cell, facing upwards. -/
def exMesh : Mesh ℚ := ⟨[⟨-2, -2, 1 / 2⟩, ⟨5, -2, 1 / 2⟩, ⟨-2, 5, 1 / 2⟩], [⟨0, 1, 2⟩], [⟨0, 0, 1⟩]⟩

/-- Everything below the plane is inside; the norm is exact for vectors along the axes. -/
def exEnv : Env ℚ where
  zt := 1 / 10 ^ 14
  snaptol := 1 / 10 ^ 12
  maxd := 10 ^ 100
  eps := 1 / 10 ^ 14
  norm := fun v => |v.x| + |v.y| + |v.z|
  inside := fun _ _ _ p => decide (p.z < 1 / 2)
  bal := id
  sortE := fun vs es => es.insertionSort fun a b => (vs.getD a.v1 ⟨0, 0⟩).x ≤ (vs.getD b.v1 ⟨0, 0⟩).x
  sortP := fun ps => ps.insertionSort fun a b => a.x ≤ b.x

theorem exEnv_sound : exEnv.Sound where
  zt_pos := by simp only [exEnv]; norm_num
  snaptol_pos := by simp only [exEnv]; norm_num
  bal := fun _ => rfl
  sortE := fun _ _ => List.perm_insertionSort _ _
  sortP := fun _ => List.perm_insertionSort _ _
  sortP_sorted := fun ps => by
    haveI : Std.Total (fun a b : Plane.P2 ℚ => a.x ≤ b.x) := ⟨fun a b => le_total a.x b.x⟩
    haveI : IsTrans (Plane.P2 ℚ) (fun a b : Plane.P2 ℚ => a.x ≤ b.x) := ⟨fun _ _ _ => le_trans⟩
    exact List.pairwise_insertionSort (fun a b : Plane.P2 ℚ => a.x ≤ b.x) ps

def exNode : Node ℚ := ⟨⟨⟨0, 0, 0⟩, ⟨0, 0, 0⟩⟩, 0, 0, 0, 0, 0, 0⟩

/-- The whole computation for the plane in the unit cell. -/
def exDomain : Option (ℚ × ℚ × Nat × Nat) :=
  match Query.new exNode exEnv.maxd exMesh true with
  | .error _ => none
  | .ok g =>
    match exEnv.getTrimmedDomain g (fun _ => ⟨1, 1, 1⟩) (fun _ => ⟨1, 1, 1⟩) ⟨0, 0, 0⟩ ⟨1, 1, 1⟩ (1 / 1000) 40 false with
    | .ok (some D) =>
      match MeshUtil.meshVolume exEnv.norm D.closed, MeshUtil.estimateQuality exEnv.norm exEnv.eps D.closed with
      | some v, some e => some (v, e, D.clipped.mesh.triangles.length, D.closed.triangles.length)
      | _, _ => none
    | _ => none

/-- C77 is not empty: the plane is clipped to four triangles, the closed boundary has the volume 1/2, is exactly closed, and is divided until there are at
least 40 triangles. -/
example : exDomain = some (1 / 2, 0, 4, 48) := by decide +kernel

/-- The surface and the cell meet the other hypotheses of C77, and the clipped surface meets each side of the cell in one edge and the
bottom and the top in none. -/
example : exMesh.check = true ∧ exMesh.triangles ≠ [] ∧ exEnv.snaptol ≤ 1 / 26000 ∧ 100 * exEnv.zt ≤ exEnv.snaptol ∧
    (∃ tol, tol = max (max (1 - 0) (max (1 - 0) (1 - 0)) * exEnv.snaptol) exEnv.snaptol ∧ tol ≤ 1 - 0 ∧ 1 - 0 + 2 * tol ≤ exEnv.maxd) ∧
    (match Query.new exNode exEnv.maxd exMesh true with
      | .error _ => none
      | .ok g =>
        match BRep.clipTriangleMesh exEnv.zt exEnv.snaptol g ⟨0, 0, 0⟩ ⟨1, 1, 1⟩ with
        | .error _ => none
        | .ok c => some ((List.range 6).map fun k => (c.edges k).length)) = some [1, 1, 1, 1, 0, 0] := by
  refine ⟨by decide +kernel, by decide +kernel, by decide +kernel, by decide +kernel, ⟨_, rfl, by decide +kernel, by decide +kernel⟩, by decide +kernel⟩

end QuESo.Domain
