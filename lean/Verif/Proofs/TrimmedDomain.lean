import Verif.Spec.TrimmedDomain
import Verif.Proofs.PlaneBox
import Verif.Proofs.BRepClip
import Verif.Props.MeshUtilities

/-! # The closed boundary of a trimmed cell -/
namespace QuESo.Domain
open QuESo.AABBTree (Fault)
open QuESo.Spec QuESo.Clip
variable {K : Type} [Field K] [LinearOrder K] [IsStrictOrderedRing K]

/-! ## The recorded edges -/

theorem edgesOk_empty (zt : K) (lo up : V3 K) : EdgesOk zt lo up (BRep.emptyClipped : ClippedMesh K) :=
  ⟨rfl, fun k e he => by simp [BRep.emptyClipped] at he⟩

theorem edgesOk_clipLoop {zt : K} (hz : 0 ≤ zt) {m : Mesh K} (lo up : V3 K) : ∀ (ids : List Nat) (out out' : ClippedMesh K),
    (∀ i ∈ ids, ∀ s, m.triangle i = some s → BoundsOverlap s.p1 s.p2 s.p3 lo up) → EdgesOk zt lo up out →
    BRep.clipLoop zt m lo up ids out = .ok out' → EdgesOk zt lo up out' := by
  intro ids
  induction ids with
  | nil => intro out out' _ h hc; simp only [BRep.clipLoop] at hc; cases hc; exact h
  | cons i rest ih =>
    intro out out' ho h hc
    rw [BRep.clipLoop] at hc
    split at hc
    · exact absurd hc (by simp)
    rename_i s hs
    have hov := ho i (by simp) s hs
    have ho' : ∀ j ∈ rest, ∀ s, m.triangle j = some s → BoundsOverlap s.p1 s.p2 s.p3 lo up := fun j hj => ho j (by simp [hj])
    split at hc
    · exact absurd hc (by simp)
    · exact ih out out' ho' h hc
    · rename_i p hp
      split at hc
      · exact absurd hc (by simp)
      rename_i o1 ho1
      refine ih o1 out' ho' ?_ hc
      by_cases hl : 3 ≤ p.length
      · have A := addToMesh_added h.valid p hl s.normal ho1
        refine ⟨A.check, ?_⟩
        intro k e he
        obtain ⟨es, h1, h2, -⟩ := A.old k
        rw [h1] at he
        obtain ⟨⟨gv, hgv⟩, gt, hgt⟩ := A.grown
        rcases List.mem_append.1 he with he | he
        · obtain ⟨a, b, k1, k2, k3, k4⟩ := h.edges k e he
          refine ⟨a, b, ?_, ?_, ?_, k4⟩
          · rw [hgv]; exact getElem?_grow k1
          · rw [hgv]; exact getElem?_grow k2
          · rw [hgt, List.length_append]; omega
        · obtain ⟨-, q, hq, g1, g2, g3, g4, t, g5, -⟩ := h2 e he
          obtain ⟨m1, m2⟩ := BRep.mem_cyclicPairs hq
          refine ⟨q.1.pt, q.2.pt, g3, g4, ?_, ⟨C24_flags zt hz _ _ _ lo up p hp _ m1 k g1, C24_flags zt hz _ _ _ lo up p hp _ m2 k g2⟩,
            C23_in_box_partial zt hz _ _ _ lo up hov p hp _ m1, C23_in_box_partial zt hz _ _ _ lo up hov p hp _ m2⟩
          exact (List.getElem?_eq_some_iff.1 g5).1
      · rw [addToMesh_small p (by omega)] at ho1
        cases ho1
        exact h

theorem edgesOn_some {zt : K} {lo up : V3 K} {m : ClippedMesh K} (h : EdgesOk zt lo up m) (k : Nat) :
    ∃ es, edgesOn m k = some es ∧ FaceEdges m k es ∧ ∀ e ∈ es, (OnFace lo up (10 * zt) k e.1 ∧ OnFace lo up (10 * zt) k e.2.1) ∧
      InBoxTol lo up (10 * zt) e.1 ∧ InBoxTol lo up (10 * zt) e.2.1 := by
  have hn : m.mesh.normals.length = m.mesh.triangles.length := (IO.check_iff.1 h.valid).1.symm
  have key : ∀ l : List (Nat × Nat × Nat), (∀ e ∈ l, e ∈ m.edges k) → ∃ es, (l.mapM fun e =>
      match m.mesh.vertices[e.1]?, m.mesh.vertices[e.2.1]?, m.mesh.normals[e.2.2]? with
      | some a, some b, some n => some (a, b, n)
      | _, _, _ => none) = some es ∧ List.Forall₂ (fun (r : Nat × Nat × Nat) (e : Plane.Given K) =>
        m.mesh.vertices[r.1]? = some e.1 ∧ m.mesh.vertices[r.2.1]? = some e.2.1 ∧ m.mesh.normals[r.2.2]? = some e.2.2) l es ∧ ∀ e ∈ es, (OnFace lo up (10 * zt) k e.1 ∧ OnFace lo up (10 * zt) k e.2.1) ∧
      InBoxTol lo up (10 * zt) e.1 ∧ InBoxTol lo up (10 * zt) e.2.1 := by
    intro l
    induction l with
    | nil => intro _; exact ⟨[], rfl, .nil, by simp⟩
    | cons e l ih =>
      intro hl
      obtain ⟨es, h1, h3, h2⟩ := ih fun f hf => hl f (by simp [hf])
      obtain ⟨a, b, k1, k2, k3, k4⟩ := h.edges k e (hl e (by simp))
      have k5 : m.mesh.normals[e.2.2]? = some (m.mesh.normals[e.2.2]'(by omega)) := List.getElem?_eq_getElem _
      refine ⟨(a, b, m.mesh.normals[e.2.2]'(by omega)) :: es, ?_, .cons ⟨k1, k2, k5⟩ h3, ?_⟩
      · rw [List.mapM_cons, k1, k2, k5, h1]; rfl
      · intro f hf
        rcases List.mem_cons.1 hf with rfl | hf
        · exact k4
        · exact h2 f hf
  exact key (m.edges k) fun e he => he

/-! ## The caps -/

theorem relSnap_pos {snaptol : K} (h : 0 < snaptol) (lo up : V3 K) : 0 < GQ.relativeSnapTolerance lo up snaptol := by
  unfold GQ.relativeSnapTolerance
  exact lt_of_lt_of_le h (le_max_right _ _)

/-- What the constructor of a face sets. -/
theorem face_spec {E : Env K} (hE : E.Sound) {m : Mesh K} {lo up : V3 K} {switch : Bool} {plane : Nat} {upper : Bool} {P : Plane.Params K}
    (h : E.face m lo up switch plane upper = .ok P) : E.SetUp m lo up (plane, upper) P := by
  unfold Env.face at h
  split at h
  · exact absurd h (by simp)
  rename_i d1 d2 d3 hd
  cases h
  refine ⟨⟨relSnap_pos hE.snaptol_pos lo up, hE.zt_pos, hE.bal, hE.sortE, hE.sortP, hE.sortP_sorted⟩, ⟨plane, hd⟩, ?_, rfl, rfl, rfl, rfl, rfl, rfl, rfl⟩
  revert hd
  unfold Plane.dirs
  split
  · rename_i hp; subst hp; split <;> simp +contextual
  · split
    · rename_i hp; subst hp; split <;> simp +contextual
    · split
      · rename_i hp; subst hp; split <;> simp +contextual
      · simp

theorem inBox_get {lo up : V3 K} {tol : K} {q : V3 K} (h : InBoxTol lo up tol q) (d : Nat) :
    lo.get d - tol ≤ q.get d ∧ q.get d ≤ up.get d + tol := by
  rcases d with _ | _ | d
  · exact h.1
  · exact h.2.1
  · exact h.2.2

theorem get_le {lo up : V3 K} (hx : lo.x ≤ up.x) (hy : lo.y ≤ up.y) (hz : lo.z ≤ up.z) (d : Nat) : lo.get d ≤ up.get d := by
  rcases d with _ | _ | d
  · exact hx
  · exact hy
  · exact hz

theorem lift_inBox {P : Plane.Params K} (hA : P.Axes) {tol : K} (ht : 0 ≤ tol) (hx : P.lo.x ≤ P.up.x) (hy : P.lo.y ≤ P.up.y) (hz : P.lo.z ≤ P.up.z)
    {q : Plane.P2 K} (hq : Plane.Rect ⟨P.lo.get P.d1 - tol, P.lo.get P.d2 - tol⟩ ⟨P.up.get P.d1 + tol, P.up.get P.d2 + tol⟩ q) :
    InBoxTol P.lo P.up tol (P.lift q) ∧ InFacePlane P.lo P.up P.d3 P.upper (P.lift q) := by
  obtain ⟨⟨q1, q2⟩, q3, q4⟩ := hq
  rcases Plane.axes_cases hA with h | h | h | h | h | h <;> obtain ⟨_, h1, h2, h3⟩ := h <;> cases hu : P.upper <;>
    simp only [h1, h2, V3.get] at q1 q2 q3 q4 <;>
    simp only [InBoxTol, InFacePlane, Plane.Params.lift, Plane.Params.position, h1, h2, h3, hu, V3.set, V3.get, if_true, if_false, Bool.false_eq_true] <;>
    refine ⟨⟨⟨?_, ?_⟩, ⟨?_, ?_⟩, ?_, ?_⟩, ?_⟩ <;> first | assumption | trivial | linarith

theorem normal_outward {P : Plane.Params K} (hA : P.Axes) : P.normal = outwardOf P.d3 P.upper := by
  rcases Plane.axes_cases hA with h | h | h | h | h | h <;> obtain ⟨_, h1, h2, h3⟩ := h <;>
    simp [Plane.Params.normal, outwardOf, h3, V3.set]

/-- A cap that is found closes its face. -/
theorem cap_spec {E : Env K} (hE : E.Sound) {clipped : ClippedMesh K} {lo up : V3 K} (hok : EdgesOk E.zt lo up clipped)
    (hx : lo.x ≤ up.x) (hy : lo.y ≤ up.y) (hz : lo.z ≤ up.z) {switch : Bool} {plane : Nat} {upper : Bool} {m : Mesh K}
    (h : E.cap clipped lo up switch plane upper = .ok m) :
    m.check = true ∧ ∃ ts, m.visit = some ts ∧ IsCap lo up (10 * E.zt) (plane, upper) ts ∧ E.CapOf clipped lo up (plane, upper) ts := by
  have hzt := hE.zt_pos
  unfold Env.cap at h
  split at h
  · exact absurd h (by simp)
  rename_i P hP
  have S := face_spec hE hP
  obtain ⟨s1, s2, s6, s5, s3, s4, s7, s8, s9, s10⟩ := id S
  obtain ⟨es, e1, e3, e2⟩ := edgesOn_some hok P.axis
  have hax : P.axis = 2 * (plane, upper).1 + (plane, upper).2.toNat := by
    unfold Plane.Params.axis
    rw [s6, s5]
    cases upper <;> simp <;> omega
  rw [e1] at h
  dsimp only at h
  split at h
  · exact absurd h (by simp)
  rename_i c hc
  cases h
  have l1 := get_le hx hy hz P.d1
  have l2 := get_le hx hy hz P.d2
  obtain ⟨r1, ts, r2, r3⟩ := Plane.run_rect s1 s2 hc (l := ⟨P.lo.get P.d1 - 10 * E.zt, P.lo.get P.d2 - 10 * E.zt⟩)
    (u := ⟨P.up.get P.d1 + 10 * E.zt, P.up.get P.d2 + 10 * E.zt⟩)
    (by
      intro q hq
      rw [s3, s4]
      unfold Plane.Params.points at hq
      obtain ⟨e, he, hq⟩ := List.mem_flatMap.1 hq
      obtain ⟨-, b1, b2⟩ := e2 e he
      simp only [List.mem_cons, List.not_mem_nil, or_false] at hq
      rcases hq with rfl | rfl
      · exact ⟨inBox_get b1 _, inBox_get b1 _⟩
      · exact ⟨inBox_get b2 _, inBox_get b2 _⟩)
    (by rw [s3, s4]; refine ⟨⟨?_, ?_⟩, ?_, ?_⟩ <;> dsimp only <;> linarith)
    (by rw [s3, s4]; refine ⟨⟨?_, ?_⟩, ?_, ?_⟩ <;> dsimp only <;> linarith)
  refine ⟨r1, ts, r2, ?_, P, es, c, S, by rw [← hax]; exact e3, hc, r2⟩
  intro t ht
  obtain ⟨t1, t2⟩ := r3 t ht
  refine ⟨by rw [t1, normal_outward s2, s6, s5], ?_⟩
  intro v hv
  obtain ⟨q, rfl, hq⟩ := t2 v hv
  have := lift_inBox s2 (tol := 10 * E.zt) (by linarith) (by rw [s3, s4]; exact hx) (by rw [s3, s4]; exact hy) (by rw [s3, s4]; exact hz) hq
  rw [s3, s4, s5, s6] at this
  exact ⟨this.2, this.1⟩

theorem caps_spec {E : Env K} (hE : E.Sound) {clipped : ClippedMesh K} {lo up : V3 K} (hok : EdgesOk E.zt lo up clipped)
    (hx : lo.x ≤ up.x) (hy : lo.y ≤ up.y) (hz : lo.z ≤ up.z) {switch : Bool} : ∀ (fs : List (Nat × Bool)) (ms : List (Mesh K)),
    E.caps clipped lo up switch fs = .ok ms → ∃ caps, List.Forall₂ (fun f cap => IsCap lo up (10 * E.zt) f cap ∧ E.CapOf clipped lo up f cap) fs caps ∧
      List.Forall₂ (fun (m : Mesh K) ts => m.check = true ∧ m.visit = some ts) ms caps := by
  intro fs
  induction fs with
  | nil => intro ms h; simp only [Env.caps] at h; cases h; exact ⟨[], .nil, .nil⟩
  | cons f fs ih =>
    intro ms h
    simp only [Env.caps] at h
    split at h
    · exact absurd h (by simp)
    rename_i m hm
    split at h
    · exact absurd h (by simp)
    rename_i ms' hms
    cases h
    obtain ⟨c1, ts, c2, c3⟩ := cap_spec hE hok hx hy hz hm
    obtain ⟨caps, d1, d2⟩ := ih ms' hms
    exact ⟨ts :: caps, .cons c3 d1, .cons ⟨c1, c2⟩ d2⟩

theorem appendAll_spec : ∀ (ms : List (Mesh K)) (m : Mesh K) (ts : List (Tri K)) (caps : List (List (Tri K))), m.check = true → m.visit = some ts →
    List.Forall₂ (fun (m : Mesh K) ts => m.check = true ∧ m.visit = some ts) ms caps →
    ∃ m', appendAll ms m = .ok m' ∧ m'.check = true ∧ m'.visit = some (ts ++ caps.flatten) := by
  intro ms
  induction ms with
  | nil => intro m ts caps h1 h2 h; cases h; exact ⟨m, rfl, h1, by simpa using h2⟩
  | cons c ms ih =>
    intro m ts caps h1 h2 h
    cases h with
    | cons hc hrest =>
      rename_i us caps
      obtain ⟨m1, k1, k2, k3, -⟩ := MeshUtil.C35_append h1 hc.1 h2 hc.2
      obtain ⟨m', j1, j2, j3⟩ := ih m1 (ts ++ us) caps k2 k3 hrest
      exact ⟨m', by simp only [appendAll, k1, j1], j2, by simpa using j3⟩

/-- The part of the constructor behind the caps never fails. -/
theorem build_of_caps {E : Env K} (hE : E.Sound) {clipped : ClippedMesh K} {lo up : V3 K} (hok : EdgesOk E.zt lo up clipped)
    (hx : lo.x ≤ up.x) (hy : lo.y ≤ up.y) (hz : lo.z ≤ up.z) {switch : Bool} (n : Nat) (hne : clipped.mesh.triangles.length ≠ 0)
    {ms : List (Mesh K)} (h : E.caps clipped lo up switch faces = .ok ms) {ts : List (Tri K)} (hv : clipped.mesh.visit = some ts) :
    ∃ closed, E.build clipped lo up n switch = .ok closed ∧ E.IsClosing n lo up clipped closed := by
  obtain ⟨caps, c1, c2⟩ := caps_spec hE hok hx hy hz faces ms h
  obtain ⟨m1, k1, k2, k3⟩ := appendAll_spec ms clipped.mesh ts caps hok.valid hv c2
  obtain ⟨m2, ts', r1, r2, r3, r4, -, r6, -⟩ := MeshUtil.C36_refine E.norm hE.zt_pos.le n k2 k3
  refine ⟨m2, ?_, r2, ts, caps, ts', hv, r3, c1, r4, r6⟩
  unfold Env.build
  rw [if_pos hne, h]
  dsimp only
  rw [k1]
  dsimp only
  rw [r1 (n + 1) (by omega)]

theorem build_spec {E : Env K} (hE : E.Sound) {clipped : ClippedMesh K} {lo up : V3 K} (hok : EdgesOk E.zt lo up clipped)
    (hx : lo.x ≤ up.x) (hy : lo.y ≤ up.y) (hz : lo.z ≤ up.z) {switch : Bool} {n : Nat} (hne : clipped.mesh.triangles.length ≠ 0)
    {ts : List (Tri K)} (hv : clipped.mesh.visit = some ts) {closed : Mesh K} (h : E.build clipped lo up n switch = .ok closed) :
    E.IsClosing n lo up clipped closed := by
  have h' := h
  unfold Env.build at h'
  rw [if_pos hne] at h'
  split at h'
  · exact absurd h' (by simp)
  rename_i ms hms
  obtain ⟨c, c1, c2⟩ := build_of_caps hE hok hx hy hz n hne hms hv
  rw [c1] at h
  cases h
  exact c2

end QuESo.Domain
