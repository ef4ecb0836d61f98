import Verif.Proofs.BRep
import Verif.Spec.Trim
import Verif.Props.Clipper

namespace QuESo.BRep
open QuESo.AABB QuESo.AABBTree QuESo.GQ QuESo.Spec QuESo.IO QuESo.Clip
variable {K : Type} [Field K] [LinearOrder K] [IsStrictOrderedRing K]

theorem sum_bounds {l : List K} {a b : K} (h : ∀ x ∈ l, a ≤ x ∧ x ≤ b) : l.length * a ≤ l.sum ∧ l.sum ≤ l.length * b := by
  induction l with
  | nil => simp
  | cons x l ih =>
    have h1 := h x (by simp)
    have h2 := ih (fun y hy => h y (by simp [hy]))
    simp only [List.sum_cons, List.length_cons, Nat.cast_add, Nat.cast_one]
    constructor <;> linarith

theorem mean_bounds {l : List K} (hl : l ≠ []) {a b : K} (h : ∀ x ∈ l, a ≤ x ∧ x ≤ b) : a ≤ l.sum / l.length ∧ l.sum / l.length ≤ b := by
  have h0 : (0 : K) < l.length := by
    have := List.length_pos_iff.2 hl
    exact_mod_cast this
  obtain ⟨h1, h2⟩ := sum_bounds h
  rw [le_div_iff₀ h0, div_le_iff₀ h0]
  exact ⟨by linarith, by linarith⟩

theorem mean_inBoxTol {l : List (V3 K)} (hl : l ≠ []) {lo up : V3 K} {tol : K} (h : ∀ v ∈ l, InBoxTol lo up tol v) :
    InBoxTol lo up tol (mean l) := by
  have hx := mean_bounds (l := l.map V3.x) (by simpa using hl) (a := lo.x - tol) (b := up.x + tol) (by
    simp only [List.mem_map]; rintro _ ⟨v, hv, rfl⟩; exact (h v hv).1)
  have hy := mean_bounds (l := l.map V3.y) (by simpa using hl) (a := lo.y - tol) (b := up.y + tol) (by
    simp only [List.mem_map]; rintro _ ⟨v, hv, rfl⟩; exact (h v hv).2.1)
  have hz := mean_bounds (l := l.map V3.z) (by simpa using hl) (a := lo.z - tol) (b := up.z + tol) (by
    simp only [List.mem_map]; rintro _ ⟨v, hv, rfl⟩; exact (h v hv).2.2)
  rw [List.length_map] at hx hy hz
  exact ⟨hx, hy, hz⟩

/-- The corners of the triangles of a polygon are its vertices or their mean. -/
theorem triangulation_corners (P : V3 K → Prop) (l : List (V3 K)) (n : V3 K) (h : ∀ v ∈ l, P v) (hm : l ≠ [] → P (mean l)) :
    ∀ t ∈ triangulation l n, t.normal = n ∧ P t.p1 ∧ P t.p2 ∧ P t.p3 := by
  intro t ht
  match l, h, hm, ht with
  | [], _, _, ht => simp [triangulation] at ht
  | [_], _, _, ht => simp [triangulation] at ht
  | [_, _], _, _, ht => simp [triangulation] at ht
  | [a, b, c], h, _, ht =>
    simp only [triangulation, List.mem_singleton] at ht
    subst ht
    exact ⟨rfl, h a (by simp), h b (by simp), h c (by simp)⟩
  | a :: b :: c :: d :: l, h, hm, ht =>
    simp only [triangulation, List.mem_map] at ht
    obtain ⟨e, he, rfl⟩ := ht
    obtain ⟨h1, h2⟩ := mem_cyclicPairs he
    exact ⟨rfl, h _ h1, h _ h2, hm (by simp)⟩

theorem triangulation_cutFrom {zt : K} {lo up : V3 K} {s : Tri K} {l : List (V3 K)}
    (h1 : ∀ v ∈ l, InTriangle s.p1 s.p2 s.p3 v) (h2 : ∀ v ∈ l, InBoxTol lo up (10 * zt) v) :
    ∀ t ∈ triangulation l s.normal, CutFrom zt lo up s t := by
  intro t ht
  obtain ⟨a0, a1, a2, a3⟩ := triangulation_corners _ l s.normal h1 (fun h => mean_inTriangle h h1) t ht
  obtain ⟨-, b1, b2, b3⟩ := triangulation_corners _ l s.normal h2 (fun h => mean_inBoxTol h h2) t ht
  exact ⟨a0, ⟨a1, a2, a3⟩, b1, b2, b3⟩

omit [Field K] [LinearOrder K] [IsStrictOrderedRing K] in
theorem triangle_corners {m : Mesh K} {i : Nat} {s : Tri K} (h : m.triangle i = some s) : m.corners i = some ⟨s.p1, s.p2, s.p3⟩ := by
  unfold Mesh.triangle at h
  cases hc : m.corners i with
  | none => rw [hc] at h; simp at h
  | some c =>
    rw [hc] at h
    cases hn : m.normals[i]? with
    | none => rw [hn] at h; simp at h
    | some n => rw [hn] at h; simp only [Option.some.injEq] at h; subst h; rfl

omit [Field K] [LinearOrder K] [IsStrictOrderedRing K] in
theorem triangle_some {m : Mesh K} (hm : m.check = true) {i : Nat} (hi : i < m.triangles.length) : ∃ s, m.triangle i = some s := by
  obtain ⟨c, hc⟩ := corners_some hm hi
  unfold Mesh.triangle
  rw [hc, List.getElem?_eq_getElem (by rw [← (check_iff.1 hm).1]; exact hi)]
  exact ⟨_, rfl⟩

/-- The pieces of a triangle of the mesh. -/
def pieces (zt : K) (m : Mesh K) (lo up : V3 K) (i : Nat) : List (Tri K) :=
  match m.triangle i with
  | none => []
  | some s => match clipTriangle zt s.p1 s.p2 s.p3 lo up with
    | .poly p => triangulation (p.map Vtx.pt) s.normal
    | _ => []

/-- The loop over the triangles adds the pieces of the triangles. -/
theorem clipLoop_spec {zt : K} (hz : 0 ≤ zt) {m : Mesh K} (hm : m.check = true) (lo up : V3 K) : ∀ (ids : List Nat) (out : ClippedMesh K)
    (ts : List (Tri K)), (∀ i ∈ ids, i < m.triangles.length) → out.mesh.check = true → out.mesh.visit = some ts →
    ∃ out', clipLoop zt m lo up ids out = .ok out' ∧ out'.mesh.check = true ∧ out'.mesh.visit = some (ts ++ ids.flatMap (pieces zt m lo up))
  | [], out, ts, _, hc, hv => ⟨out, rfl, hc, by simpa using hv⟩
  | i :: rest, out, ts, hi, hc, hv => by
    obtain ⟨s, hs⟩ := triangle_some hm (hi i (by simp))
    have hi' : ∀ j ∈ rest, j < m.triangles.length := fun j hj => hi j (by simp [hj])
    rw [clipLoop, hs]
    simp only
    cases hcl : clipTriangle zt s.p1 s.p2 s.p3 lo up with
    | error => exact absurd hcl (C22_capacity_partial zt hz _ _ _ lo up).1
    | null =>
      obtain ⟨out', g1, g2, g3⟩ := clipLoop_spec hz hm lo up rest out ts hi' hc hv
      refine ⟨out', g1, g2, ?_⟩
      have : pieces zt m lo up i = [] := by simp only [pieces, hs, hcl]
      simpa [List.flatMap_cons, this] using g3
    | poly p =>
      simp only
      obtain ⟨o1, ho1⟩ := C22_triangulation_never_fails zt hz _ _ _ lo up p hcl s.normal out
      obtain ⟨c1, c2⟩ := C25_triangles p s.normal out o1 hc ho1
      rw [ho1]
      simp only
      obtain ⟨out', g1, g2, g3⟩ := clipLoop_spec hz hm lo up rest o1 _ hi' c1 (c2 ts hv)
      refine ⟨out', g1, g2, ?_⟩
      have : pieces zt m lo up i = triangulation (p.map Vtx.pt) s.normal := by simp only [pieces, hs, hcl]
      rw [List.flatMap_cons, this, ← List.append_assoc]
      exact g3

/-- The pieces of a triangle that overlaps the box. -/
theorem pieces_spec {zt : K} (hz : 0 ≤ zt) {m : Mesh K} {lo up : V3 K} {i : Nat} {s : Tri K} (hs : m.triangle i = some s)
    (ho : BoundsOverlap s.p1 s.p2 s.p3 lo up) : IsCut zt (10 * zt) lo up s (pieces zt m lo up i) := by
  cases hcl : clipTriangle zt s.p1 s.p2 s.p3 lo up with
  | error => exact absurd hcl (C22_capacity_partial zt hz _ _ _ lo up).1
  | null =>
    have e : pieces zt m lo up i = [] := by simp only [pieces, hs, hcl]
    rw [e]
    refine ⟨by simp, by simp, List.Pairwise.nil, fun q hq hd => ?_⟩
    obtain ⟨p, hp, -⟩ := C23_nothing_lost zt hz _ _ _ lo up q hq hd
    rw [hcl] at hp; cases hp
  | poly p =>
    have e : pieces zt m lo up i = triangulation (p.map Vtx.pt) s.normal := by simp only [pieces, hs, hcl]
    rw [e]
    obtain ⟨h1, h2, h3⟩ := C25_partition zt hz _ _ _ lo up p hcl s.normal
    refine ⟨triangulation_cutFrom ?_ ?_, h1, h2, h3⟩
    · simp only [List.mem_map]; rintro _ ⟨v, hv, rfl⟩
      exact C23_in_triangle zt hz _ _ _ lo up p hcl v hv
    · simp only [List.mem_map]; rintro _ ⟨v, hv, rfl⟩
      exact C23_in_box_partial zt hz _ _ _ lo up ho p hcl v hv

/-- Pieces of the listed triangles, in another order. -/
theorem perm_flatMap {α : Type _} (f : Nat → List α) {ids : List Nat} (hn : ids.Nodup) {n : Nat} (hlt : ∀ i ∈ ids, i < n) :
    (ids.flatMap f).Perm ((List.range n).flatMap fun i => if i ∈ ids then f i else []) := by
  have hp : ids.Perm ((List.range n).filter fun i => decide (i ∈ ids)) := by
    refine (List.perm_ext_iff_of_nodup hn (List.nodup_range.filter _)).2 fun i => ?_
    simp only [List.mem_filter, List.mem_range, decide_eq_true_eq]
    exact ⟨fun h => ⟨hlt i h, h⟩, fun h => h.2⟩
  have e : ∀ l : List Nat, (l.filter fun i => decide (i ∈ ids)).flatMap f = l.flatMap fun i => if i ∈ ids then f i else [] := by
    intro l
    induction l with
    | nil => rfl
    | cons a l ih =>
      by_cases ha : a ∈ ids
      · simp [List.filter_cons, ha, List.flatMap_cons, ih]
      · simp [List.filter_cons, ha, List.flatMap_cons, ih]
  rw [← e]
  exact hp.flatMap_right f

/-- A triangle with a point properly inside the box overlaps it. -/
theorem overlap_of_point {p1 p2 p3 lo up q : V3 K} {tol : K} (ht : 0 < tol) (hq : InTriangle p1 p2 p3 q) (hb : InBoxTol lo up (-tol) q) :
    BoundsOverlap p1 p2 p3 lo up := by
  obtain ⟨u, v, w, hu, hv, hw, h1, hx, hy, hz⟩ := hq
  obtain ⟨⟨x1, x2⟩, ⟨y1, y2⟩, z1, z2⟩ := hb
  have low : ∀ {l a b c t : K}, t = u * a + v * b + w * c → l - -tol ≤ t → l < a ∨ l < b ∨ l < c := by
    intro l a b c t e ht
    by_contra hn
    push Not at hn
    have := (comb_mem hu hv hw h1 (l := l)).2 hn.1 hn.2.1 hn.2.2
    linarith
  have upp : ∀ {l a b c t : K}, t = u * a + v * b + w * c → t ≤ l + -tol → a < l ∨ b < l ∨ c < l := by
    intro l a b c t e ht
    by_contra hn
    push Not at hn
    have := (comb_mem hu hv hw h1 (l := l)).1 hn.1 hn.2.1 hn.2.2
    linarith
  exact ⟨⟨low hx x1, upp hx x2⟩, ⟨low hy y1, upp hy y2⟩, low hz z1, upp hz z2⟩

/-- Clipping the listed triangles gives the clipped surface, if no triangle with a point that deep in the box is missing. -/
theorem isClipped_of_ids {zt tol depth : K} (hz : 0 ≤ zt) (ht : 0 < tol) (hd1 : tol ≤ depth) (hd2 : 10 * zt ≤ depth) {m : Mesh K} {lo up : V3 K}
    {ids : List Nat} (hn : ids.Nodup)
    (hids : ∀ i, i ∈ ids ↔ ∃ c, m.corners i = some c ∧ ∃ q, InTriangle c.x c.y c.z q ∧ InBoxTol lo up (-tol) q) :
    IsClipped zt depth m lo up (ids.flatMap (pieces zt m lo up)) := by
  refine ⟨fun i => if i ∈ ids then pieces zt m lo up i else [], perm_flatMap _ hn fun i hi => ?_, fun i s hs => ?_⟩
  · obtain ⟨c, hc, -⟩ := (hids i).1 hi; exact corners_lt hc
  · dsimp only
    have weak : ∀ {q}, DeepInBox lo up depth q → DeepInBox lo up (10 * zt) q ∧ InBoxTol lo up (-tol) q := by
      rintro q ⟨⟨d1, d2⟩, ⟨d3, d4⟩, d5, d6⟩
      refine ⟨⟨⟨?_, ?_⟩, ⟨?_, ?_⟩, ?_, ?_⟩, ⟨⟨?_, ?_⟩, ⟨?_, ?_⟩, ?_, ?_⟩⟩ <;> linarith
    by_cases hi : i ∈ ids
    · rw [if_pos hi]
      obtain ⟨c, hc, q, q1, q2⟩ := (hids i).1 hi
      rw [triangle_corners hs] at hc
      cases hc
      obtain ⟨a, b, c, d⟩ := pieces_spec hz hs (overlap_of_point ht q1 q2)
      exact ⟨a, b, c, fun q hq hd => d q hq (weak hd).1⟩
    · rw [if_neg hi]
      refine ⟨by simp, by simp, List.Pairwise.nil, fun q hq hd => ?_⟩
      exact absurd ((hids i).2 ⟨_, triangle_corners hs, q, hq, (weak hd).2⟩) hi

end QuESo.BRep
