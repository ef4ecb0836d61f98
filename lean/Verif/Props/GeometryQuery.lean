import Verif.Proofs.RayBorder
import Mathlib.Algebra.Order.Ring.Rat

/-!
# C48, C55, C56: searching triangles and testing points

`node` is the content of tree nodes that have not been written and `junk` the content of uninitialised variables; both are
arbitrary in all theorems.
-/
namespace QuESo.GQ
open QuESo.AABB QuESo.AABBTree QuESo.Spec QuESo.IO
variable {K : Type} [Field K] [LinearOrder K] [IsStrictOrderedRing K]

/-- C55: for every valid, non-empty mesh, every box and every tolerance from zero to half the shortest side, the search
returns, without repetition, exactly the triangles that share a point with the box shrunk by the tolerance. -/
theorem C55_triangle_ids (node : Node K) (maxd : K) (m : Mesh K) (hm : m.check = true) (hne : m.triangles ≠ [])
    (hn : m.triangles.length ≤ 2 ^ 30) (closed : Bool) (lo up : V3 K) (tol : K) (ht : 0 ≤ tol) (hx : 2 * tol ≤ up.x - lo.x)
    (hy : 2 * tol ≤ up.y - lo.y) (hz : 2 * tol ≤ up.z - lo.z) :
    ∃ g ids, Query.new node maxd m closed = .ok g ∧ g.intersectedTriangleIds lo up tol = .ok ids ∧ ids.Nodup ∧
      ∀ i, i ∈ ids ↔ ∃ c, m.corners i = some c ∧ ∃ q, InTriangle c.x c.y c.z q ∧ InBoxTol lo up (-tol) q := by
  obtain ⟨cs, t, h1, h2, h3, h4⟩ := new_spec node maxd hm hn closed
  have ho : Ordered (⟨lo, up⟩ : Box K) := ⟨by simp only; linarith, by simp only; linarith, by simp only; linarith⟩
  have hmk : mk? lo up = some ⟨lo, up⟩ := (C27_constructor lo up _).2 ⟨ho, rfl⟩
  obtain ⟨ids, h5, h6, h7, h8⟩ := tree_query node hne hn h2 h3 h4 (fun b => intersectBox ⟨lo, up⟩ b)
    (fun b => ∃ p, InBox ⟨lo, up⟩ p ∧ InBox b p) (fun a b _ _ hab ⟨p, p1, p2⟩ => ⟨p, p1, hab p p2⟩)
    (fun b ob hb => (C27_common_point _ b ho ob).2 hb)
  obtain ⟨out, g1, g2, g3⟩ := intersectedLoop_spec hm ⟨lo, up⟩ tol ids h7 h6
  refine ⟨_, out, h1, ?_, g2.nodup h6, fun i => ?_⟩
  · simp only [Query.intersectedTriangleIds, hmk, h5]; exact g1
  · rw [g3]
    constructor
    · rintro ⟨-, c, hc, hi⟩
      exact ⟨c, hc, (C30_exact ⟨lo, up⟩ c.x c.y c.z tol hx hy hz).1 hi⟩
    · rintro ⟨c, hc, q, q1, q2⟩
      exact ⟨h8 i c hc ⟨q, inBoxTol_inBox ht q2, inTriangle_triBox q1⟩, c, hc,
        (C30_exact ⟨lo, up⟩ c.x c.y c.z tol hx hy hz).2 ⟨q, q1, q2⟩⟩

/-- C55: a cell is reported as cut by the surface exactly when some triangle shares a point with the cell shrunk by the
tolerance, which is taken relative to the longest side of the cell but not smaller than the given one. -/
theorem C55_do_intersect (node : Node K) (maxd : K) (m : Mesh K) (hm : m.check = true) (hne : m.triangles ≠ [])
    (hn : m.triangles.length ≤ 2 ^ 30) (closed : Bool) (lo up : V3 K) (tol snap : K) (ht : 0 ≤ tol)
    (hs : snap = max (max (up.x - lo.x) (max (up.y - lo.y) (up.z - lo.z)) * tol) tol) (hx : 2 * snap ≤ up.x - lo.x)
    (hy : 2 * snap ≤ up.y - lo.y) (hz : 2 * snap ≤ up.z - lo.z) :
    ∃ g b, Query.new node maxd m closed = .ok g ∧ g.doIntersect lo up tol = .ok b ∧
      (b = true ↔ ∃ i c, m.corners i = some c ∧ ∃ q, InTriangle c.x c.y c.z q ∧ InBoxTol lo up (-snap) q) := by
  obtain ⟨cs, t, h1, h2, h3, h4⟩ := new_spec node maxd hm hn closed
  have hs0 : 0 ≤ snap := hs ▸ ht.trans (le_max_right _ _)
  have ho : Ordered (⟨lo, up⟩ : Box K) := ⟨by simp only; linarith, by simp only; linarith, by simp only; linarith⟩
  have hmk : mk? lo up = some ⟨lo, up⟩ := (C27_constructor lo up _).2 ⟨ho, rfl⟩
  obtain ⟨ids, h5, h6, h7, h8⟩ := tree_query node hne hn h2 h3 h4 (fun b => intersectBox ⟨lo, up⟩ b)
    (fun b => ∃ p, InBox ⟨lo, up⟩ p ∧ InBox b p) (fun a b _ _ hab ⟨p, p1, p2⟩ => ⟨p, p1, hab p p2⟩)
    (fun b ob hb => (C27_common_point _ b ho ob).2 hb)
  obtain ⟨r, g1, g2⟩ := doIntersectLoop_spec hm ⟨lo, up⟩ snap ids h7
  refine ⟨_, r, h1, ?_, g2.trans ⟨?_, ?_⟩⟩
  · simp only [Query.doIntersect, hmk, h5, relativeSnapTolerance, ← hs]; exact g1
  · rintro ⟨i, -, c, hc, hi⟩
    exact ⟨i, c, hc, (C30_exact ⟨lo, up⟩ c.x c.y c.z snap hx hy hz).1 hi⟩
  · rintro ⟨i, c, hc, q, q1, q2⟩
    exact ⟨i, h8 i c hc ⟨q, inBoxTol_inBox hs0 q2, inTriangle_triBox q1⟩, c, hc,
      (C30_exact ⟨lo, up⟩ c.x c.y c.z snap hx hy hz).2 ⟨q, q1, q2⟩⟩

/-- C55: bounds in the wrong order are an error. -/
theorem C55_inverted_box_error (g : Query K) (lo up : V3 K) (tol : K) (h : lo.x > up.x ∨ lo.y > up.y ∨ lo.z > up.z) :
    g.intersectedTriangleIds lo up tol = .error .error ∧ g.doIntersect lo up tol = .error .error := by
  have hmk : mk? lo up = none := by
    unfold mk?
    split_ifs <;> simp_all
  simp [Query.intersectedTriangleIds, Query.doIntersect, hmk]

/-- C55 does not extend to a mesh without triangles: every search reads outside an array. -/
theorem C55_empty_mesh_ub (node : Node K) (maxd : K) (m : Mesh K) (he : m.triangles = []) (closed : Bool) (lo up : V3 K) (tol : K)
    (h : Ordered ⟨lo, up⟩) : ∃ g, Query.new node maxd m closed = .ok g ∧ g.intersectedTriangleIds lo up tol = .error .ub ∧
      g.doIntersect lo up tol = .error .ub := by
  obtain ⟨t, h1, h2⟩ := C26_empty_query_ub node (fun b => intersectBox ⟨lo, up⟩ b)
  have hmk : mk? lo up = some ⟨lo, up⟩ := (C27_constructor lo up _).2 ⟨h, rfl⟩
  refine ⟨⟨m, t, ⟨maxd, maxd, maxd⟩, ⟨-maxd, -maxd, -maxd⟩, closed⟩, ?_, ?_, ?_⟩
  · simp only [Query.new, he, List.length_nil, List.range_zero, allCorners, List.map_nil, h1, List.foldl_nil]
  · simp only [Query.intersectedTriangleIds, hmk, h2]
  · simp only [Query.doIntersect, hmk, h2]

/-- The point is a corner of some triangle of the mesh. -/
def IsCorner (m : Mesh K) (v : V3 K) : Prop := ∃ i c, m.corners i = some c ∧ (v = c.x ∨ v = c.y ∨ v = c.z)

/-- C56: the fast rejection test is exact: a point passes it exactly when each of its coordinates lies between the
smallest and the largest coordinate of the corners.  (The coordinates are `double`, so none exceeds `maxd`.) -/
theorem C56_bounding_box (node : Node K) (maxd : K) (m : Mesh K) (hm : m.check = true) (hne : m.triangles ≠ [])
    (hn : m.triangles.length ≤ 2 ^ 30) (closed : Bool)
    (hd : ∀ v, IsCorner m v → (-maxd ≤ v.x ∧ v.x ≤ maxd) ∧ (-maxd ≤ v.y ∧ v.y ≤ maxd) ∧ -maxd ≤ v.z ∧ v.z ≤ maxd) (p : V3 K) :
    ∃ g, Query.new node maxd m closed = .ok g ∧ (g.isWithinBoundingBox p = true ↔
      ((∃ v, IsCorner m v ∧ v.x ≤ p.x) ∧ ∃ v, IsCorner m v ∧ p.x ≤ v.x) ∧
      ((∃ v, IsCorner m v ∧ v.y ≤ p.y) ∧ ∃ v, IsCorner m v ∧ p.y ≤ v.y) ∧
      ((∃ v, IsCorner m v ∧ v.z ≤ p.z) ∧ ∃ v, IsCorner m v ∧ p.z ≤ v.z)) := by
  obtain ⟨cs, t, h1, h2, h3, h4⟩ := new_spec node maxd hm hn closed
  refine ⟨_, h1, ?_⟩
  have hpos : 0 < m.triangles.length := List.length_pos_iff.2 hne
  obtain ⟨c0, hc0⟩ := corners_some hm hpos
  have hv0 : IsCorner m c0.x := ⟨0, c0, hc0, Or.inl rfl⟩
  have hmem : ∀ c ∈ cs, ∃ i, m.corners i = some c := fun c hc => by
    obtain ⟨i, hi, e⟩ := List.getElem_of_mem hc
    exact ⟨i, by rw [h4, List.getElem?_eq_getElem hi, e]⟩
  have hmem' : ∀ i c, m.corners i = some c → c ∈ cs := fun i c hc => by
    rw [h4] at hc; exact List.mem_of_getElem? hc
  -- a bound of a box is the coordinate of a corner and the other way round
  have low : ∀ (f : V3 K → K) (a : K), (∀ c : V3 (V3 K), f (triBox c).lower = min (min (f c.x) (f c.y)) (f c.z)) →
      (maxd ≤ a → f c0.x ≤ a) → ((maxd ≤ a ∨ ∃ b ∈ cs.map triBox, f b.lower ≤ a) ↔ ∃ v, IsCorner m v ∧ f v ≤ a) := by
    intro f a hf h0
    constructor
    · rintro (h | ⟨b, hb, h⟩)
      · exact ⟨_, hv0, h0 h⟩
      · obtain ⟨c, hc, rfl⟩ := List.mem_map.1 hb
        obtain ⟨i, hi⟩ := hmem c hc
        rw [hf, min_le_iff, min_le_iff] at h
        rcases h with (h | h) | h
        · exact ⟨_, ⟨i, c, hi, Or.inl rfl⟩, h⟩
        · exact ⟨_, ⟨i, c, hi, Or.inr (Or.inl rfl)⟩, h⟩
        · exact ⟨_, ⟨i, c, hi, Or.inr (Or.inr rfl)⟩, h⟩
    · rintro ⟨v, ⟨i, c, hi, hv⟩, h⟩
      refine Or.inr ⟨_, List.mem_map_of_mem (hmem' i c hi), ?_⟩
      rw [hf, min_le_iff, min_le_iff]
      rcases hv with rfl | rfl | rfl <;> tauto
  have upp : ∀ (f : V3 K → K) (a : K), (∀ c : V3 (V3 K), f (triBox c).upper = max (max (f c.x) (f c.y)) (f c.z)) →
      (a ≤ -maxd → a ≤ f c0.x) → ((a ≤ -maxd ∨ ∃ b ∈ cs.map triBox, a ≤ f b.upper) ↔ ∃ v, IsCorner m v ∧ a ≤ f v) := by
    intro f a hf h0
    constructor
    · rintro (h | ⟨b, hb, h⟩)
      · exact ⟨_, hv0, h0 h⟩
      · obtain ⟨c, hc, rfl⟩ := List.mem_map.1 hb
        obtain ⟨i, hi⟩ := hmem c hc
        rw [hf, le_max_iff, le_max_iff] at h
        rcases h with (h | h) | h
        · exact ⟨_, ⟨i, c, hi, Or.inl rfl⟩, h⟩
        · exact ⟨_, ⟨i, c, hi, Or.inr (Or.inl rfl)⟩, h⟩
        · exact ⟨_, ⟨i, c, hi, Or.inr (Or.inr rfl)⟩, h⟩
    · rintro ⟨v, ⟨i, c, hi, hv⟩, h⟩
      refine Or.inr ⟨_, List.mem_map_of_mem (hmem' i c hi), ?_⟩
      rw [hf, le_max_iff, le_max_iff]
      rcases hv with rfl | rfl | rfl <;> tauto
  obtain ⟨⟨a1, a2⟩, ⟨a3, a4⟩, a5, a6⟩ := hd _ hv0
  have ex := low V3.x p.x (fun _ => rfl) (fun h => a2.trans h)
  have ey := low V3.y p.y (fun _ => rfl) (fun h => a4.trans h)
  have ez := low V3.z p.z (fun _ => rfl) (fun h => a6.trans h)
  have fx := upp V3.x p.x (fun _ => rfl) (fun h => h.trans a1)
  have fy := upp V3.y p.y (fun _ => rfl) (fun h => h.trans a3)
  have fz := upp V3.z p.z (fun _ => rfl) (fun h => h.trans a5)
  rw [← ex, ← ey, ← ez, ← fx, ← fy, ← fz]
  rw [← (foldl_lower p.x _ ⟨maxd, maxd, maxd⟩).1, ← (foldl_lower p.y _ ⟨maxd, maxd, maxd⟩).2.1, ← (foldl_lower p.z _ ⟨maxd, maxd, maxd⟩).2.2,
    ← (foldl_upper p.x _ ⟨-maxd, -maxd, -maxd⟩).1, ← (foldl_upper p.y _ ⟨-maxd, -maxd, -maxd⟩).2.1, ← (foldl_upper p.z _ ⟨-maxd, -maxd, -maxd⟩).2.2]
  unfold Query.isWithinBoundingBox
  split_ifs with h
  · simp only [Bool.false_eq_true, false_iff]
    rintro ⟨⟨b1, b2⟩, ⟨b3, b4⟩, b5, b6⟩
    rcases h with h | h | h | h | h | h
    · exact absurd b1 (not_le.2 h)
    · exact absurd b2 (not_le.2 h)
    · exact absurd b3 (not_le.2 h)
    · exact absurd b4 (not_le.2 h)
    · exact absurd b5 (not_le.2 h)
    · exact absurd b6 (not_le.2 h)
  · simp only [not_or, not_lt] at h
    simp only [true_iff]
    exact ⟨⟨h.1, h.2.1⟩, ⟨h.2.2.1, h.2.2.2.1⟩, h.2.2.2.2.1, h.2.2.2.2.2⟩

/-- A ray query gives a list of valid numbers with all triangles that are hit. -/
theorem ray_query (node : Node K) {m : Mesh K} (hne : m.triangles ≠ []) (hn : m.triangles.length ≤ 2 ^ 30)
    {cs : List (V3 (V3 K))} {t : AABBTree.Tree K} (hb : Tree.build node (cs.map triBox) = .ok t)
    (hl : cs.length = m.triangles.length) (hc : ∀ i, m.corners i = cs[i]?) (r : Ray K) {zt : K} (hzt : 0 < zt) :
    ∃ ids, t.query (fun b => r.intersectBox b) = .ok ids ∧ ids.Nodup ∧ (∀ i ∈ ids, i < m.triangles.length) ∧
      ∀ i c, m.corners i = some c → ClearHit zt r.origin r.direction c → i ∈ ids := by
  obtain ⟨ids, h5, h6, h7, h8⟩ := tree_query node hne hn hb hl hc (fun b => r.intersectBox b)
    (fun b => ∃ p, OnRay r.origin r.direction p ∧ InBox b p) (fun a b _ _ hab ⟨p, p1, p2⟩ => ⟨p, p1, hab p p2⟩)
    (fun b _ hb => C28_never_misses r b hb)
  exact ⟨ids, h5, h6, h7, fun i c hi hh => h8 i c hi (clearHit_inTriangle hzt hh)⟩

/-- C56, closed meshes: if the ray is well placed with respect to every triangle of significant area, the test succeeds
and says "inside" exactly when the number of triangles that the ray goes through is odd.  The answer depends neither on
the order in which the tree gives the triangles nor on uninitialised memory. -/
theorem C56_closed_parity_partial (node : Node K) (zt maxd : K) (hzt : 0 < zt) (junk : Nat → V3 K) (m : Mesh K) (hm : m.check = true)
    (hne : m.triangles ≠ []) (hn : m.triangles.length ≤ 2 ^ 30) (r : Ray K)
    (hc : ∀ i c, m.corners i = some c → Sizable zt c → Clear zt r.origin r.direction c) :
    ∃ g b, Query.new node maxd m true = .ok g ∧ g.isInside zt maxd junk r = .ok (b, true) ∧
      (b = true ↔ Odd (Set.ncard {i | ∃ c, m.corners i = some c ∧ Sizable zt c ∧ ClearHit zt r.origin r.direction c})) := by
  classical
  obtain ⟨cs, t, h1, h2, h3, h4⟩ := new_spec node maxd hm hn true
  obtain ⟨ids, h5, h6, h7, h8⟩ := ray_query node hne hn h2 h3 h4 r hzt
  refine ⟨_, decide ((0 + ids.countP fun i => decide (Counts zt m r.origin r.direction i)) % 2 = 1), h1, ?_, ?_⟩
  · simp only [Query.isInside, Query.isInsideClosed, h5, if_true]
    exact closedLoop_spec hzt junk hm r hc ids 0 h7
  · have hset : {i | ∃ c, m.corners i = some c ∧ Sizable zt c ∧ ClearHit zt r.origin r.direction c} =
        ((ids.filter fun i => decide (Counts zt m r.origin r.direction i)).toFinset : Set Nat) := by
      ext i
      simp only [Set.mem_setOf_eq, Finset.mem_coe, List.mem_toFinset, List.mem_filter, decide_eq_true_eq]
      exact ⟨fun ⟨c, g1, g2, g3⟩ => ⟨h8 i c g1 g3, c, g1, g2, g3⟩, fun h => h.2⟩
    rw [hset, Set.ncard_coe_finset, List.toFinset_card_of_nodup (h6.filter _), ← List.countP_eq_length_filter, Nat.zero_add,
      decide_eq_true_eq, Nat.odd_iff]

/-- C56, open meshes: if the ray is well placed with respect to every triangle (or parallel to it and not through it), the
test succeeds and says "inside" exactly when the nearest triangle on the ray is seen from its back; without any
triangle on the ray it says "outside". -/
theorem C56_open_nearest_partial (node : Node K) (zt maxd : K) (hzt : 0 < zt) (junk : Nat → V3 K) (m : Mesh K) (hm : m.check = true)
    (hne : m.triangles ≠ []) (hn : m.triangles.length ≤ 2 ^ 30) (r : Ray K)
    (hc : ∀ i c, m.corners i = some c → Clear zt r.origin r.direction c ∨ ¬ NotParallel zt r.direction c ∧ ¬ ClearHit zt r.origin r.direction c)
    (hmax : ∀ i c t u v, m.corners i = some c → PlaneHit r.origin r.direction c t u v → zt ≤ t → zt ≤ u → zt ≤ v → u + v ≤ 1 - zt → t < maxd) :
    ∃ g b, Query.new node maxd m false = .ok g ∧ g.isInside zt maxd junk r = .ok (b, true) ∧
      ((b = false ∧ ∀ i c, m.corners i = some c → ¬ ClearHit zt r.origin r.direction c) ∨
        ∃ i c t u v, m.corners i = some c ∧ PlaneHit r.origin r.direction c t u v ∧ zt ≤ t ∧ zt ≤ u ∧ zt ≤ v ∧ u + v ≤ 1 - zt ∧
          (b = true ↔ BackFacing r.direction c) ∧
          ∀ j c' t' u' v', m.corners j = some c' → PlaneHit r.origin r.direction c' t' u' v' → zt ≤ t' → zt ≤ u' → zt ≤ v' →
            u' + v' ≤ 1 - zt → t ≤ t') := by
  obtain ⟨cs, t, h1, h2, h3, h4⟩ := new_spec node maxd hm hn false
  obtain ⟨ids, h5, h6, h7, h8⟩ := ray_query node hne hn h2 h3 h4 r hzt
  obtain ⟨b, g1, g2⟩ := openLoop_spec hzt hm r hc hmax ids [] maxd false h7 (Or.inl ⟨rfl, rfl, by simp⟩)
  refine ⟨_, b, h1, ?_, ?_⟩
  · simp only [Query.isInside, Query.isInsideOpen, h5, Bool.false_eq_true, if_false]
    exact g1
  · rw [List.nil_append] at g2
    rcases g2 with ⟨g2, g3⟩ | ⟨i, hi, c, t, u, v, k1, k2, k3, k4, k5, k6, k7, k8⟩
    · exact Or.inl ⟨g2, fun i c hi hh => g3 i (h8 i c hi hh) c hi hh⟩
    · refine Or.inr ⟨i, c, t, u, v, k1, k2, k3, k4, k5, k6, k7, fun j c' t' u' v' a1 a2 a3 a4 a5 a6 => ?_⟩
      exact k8 j (h8 j c' a1 ⟨t', u', v', a2, a3, a4, a5, a6⟩) c' t' u' v' a1 a2 a3 a4 a5 a6

/-- The number of a triangle that the ray reaches is among the candidates. -/
theorem hit_found (node : Node K) {m : Mesh K} (hm : m.check = true) (hne : m.triangles ≠ []) (hn : m.triangles.length ≤ 2 ^ 30) (maxd : K)
    (closed : Bool) (r : Ray K) : ∃ g ids, Query.new node maxd m closed = .ok g ∧ g.mesh = m ∧ g.closed = closed ∧
      g.tree.query (fun b => r.intersectBox b) = .ok ids ∧ (∀ i ∈ ids, i < m.triangles.length) ∧
      ∀ i c t u v, m.corners i = some c → PlaneHit r.origin r.direction c t u v → 0 ≤ t → 0 ≤ u → 0 ≤ v → u + v ≤ 1 → i ∈ ids := by
  obtain ⟨cs, t, h1, h2, h3, h4⟩ := new_spec node maxd hm hn closed
  obtain ⟨ids, h5, h6, h7, h8⟩ := tree_query node hne hn h2 h3 h4 (fun b => r.intersectBox b)
    (fun b => ∃ p, OnRay r.origin r.direction p ∧ InBox b p) (fun a b _ _ hab ⟨p, p1, p2⟩ => ⟨p, p1, hab p p2⟩)
    (fun b _ hb => C28_never_misses r b hb)
  exact ⟨_, ids, h1, rfl, rfl, h5, h7, fun i c t u v hi hp ht hu hv huv => h8 i c hi (hit_inTriangle hp ht hu hv huv)⟩

/-- C56, closed meshes: if the ray runs through a triangle too close to one of its edges, the test reports a failure. -/
theorem C56_closed_edge (node : Node K) (zt maxd : K) (hzt : 0 < zt) (junk : Nat → V3 K) (m : Mesh K) (hm : m.check = true)
    (hne : m.triangles ≠ []) (hn : m.triangles.length ≤ 2 ^ 30) (r : Ray K)
    (hc : ∀ i c, m.corners i = some c → Sizable zt c →
      Clear zt r.origin r.direction c ∨ NotParallel zt r.direction c ∧ EdgeHit zt r.origin r.direction c)
    (he : ∃ i c, m.corners i = some c ∧ Sizable zt c ∧ NotParallel zt r.direction c ∧ EdgeHit zt r.origin r.direction c) :
    ∃ g, Query.new node maxd m true = .ok g ∧ g.isInside zt maxd junk r = .ok (false, false) := by
  obtain ⟨g, ids, h1, h2, h3, h4, h5, h6⟩ := hit_found node hm hne hn maxd true r
  refine ⟨g, h1, ?_⟩
  simp only [Query.isInside, Query.isInsideClosed, h3, h4, if_true, h2]
  refine closedLoop_stop junk hm r (false, false)
    (fun i => ∃ c, m.corners i = some c ∧ Sizable zt c ∧ NotParallel zt r.direction c ∧ EdgeHit zt r.origin r.direction c) ?_ ids 0 h5 ?_
  · intro i c rest n hci
    by_cases hs : ∃ c, m.corners i = some c ∧ Sizable zt c ∧ NotParallel zt r.direction c ∧ EdgeHit zt r.origin r.direction c
    · obtain ⟨c, k1, k2, k3, k4⟩ := hs
      exact Or.inl (closedLoop_edge hzt junk r k1 k2 k3 k4 rest n)
    · refine Or.inr ⟨hs, closedLoop_pass hzt junk r hci (fun k => ?_) rest n⟩
      rcases hc i c hci k with h | h
      · exact h
      · exact absurd ⟨c, hci, k, h⟩ hs
  · obtain ⟨i, c, k1, k2, k3, k4⟩ := he
    obtain ⟨t, u, v, e1, e2, e3, e4, e5, -⟩ := id k4
    exact ⟨i, h6 i c t u v k1 e1 (by linarith) e3 e4 e5, c, k1, k2, k3, k4⟩

/-- C56, closed meshes: a point on the surface is outside. -/
theorem C56_closed_surface (node : Node K) (zt maxd : K) (hzt : 0 < zt) (junk : Nat → V3 K) (m : Mesh K) (hm : m.check = true)
    (hne : m.triangles ≠ []) (hn : m.triangles.length ≤ 2 ^ 30) (r : Ray K)
    (hc : ∀ i c, m.corners i = some c → Sizable zt c →
      Clear zt r.origin r.direction c ∨ NotParallel zt r.direction c ∧ SurfaceHit zt r.origin r.direction c)
    (he : ∃ i c, m.corners i = some c ∧ Sizable zt c ∧ NotParallel zt r.direction c ∧ SurfaceHit zt r.origin r.direction c) :
    ∃ g, Query.new node maxd m true = .ok g ∧ g.isInside zt maxd junk r = .ok (false, true) := by
  obtain ⟨g, ids, h1, h2, h3, h4, h5, h6⟩ := hit_found node hm hne hn maxd true r
  refine ⟨g, h1, ?_⟩
  simp only [Query.isInside, Query.isInsideClosed, h3, h4, if_true, h2]
  refine closedLoop_stop junk hm r (false, true)
    (fun i => ∃ c, m.corners i = some c ∧ Sizable zt c ∧ NotParallel zt r.direction c ∧ SurfaceHit zt r.origin r.direction c) ?_ ids 0 h5 ?_
  · intro i c rest n hci
    by_cases hs : ∃ c, m.corners i = some c ∧ Sizable zt c ∧ NotParallel zt r.direction c ∧ SurfaceHit zt r.origin r.direction c
    · obtain ⟨c, k1, k2, k3, k4⟩ := hs
      exact Or.inl (closedLoop_surface hzt junk r k1 k2 k3 k4 rest n)
    · refine Or.inr ⟨hs, closedLoop_pass hzt junk r hci (fun k => ?_) rest n⟩
      rcases hc i c hci k with h | h
      · exact h
      · exact absurd ⟨c, hci, k, h⟩ hs
  · obtain ⟨i, c, k1, k2, k3, k4⟩ := he
    obtain ⟨t, u, v, e1, e2, e3, e4, e5, e6⟩ := id k4
    exact ⟨i, h6 i c t u v k1 e1 e2 e4 e5 e6, c, k1, k2, k3, k4⟩

/-- C56, open meshes: if the ray runs through a triangle too close to one of its edges, the test reports a failure. -/
theorem C56_open_edge (node : Node K) (zt maxd : K) (hzt : 0 < zt) (junk : Nat → V3 K) (m : Mesh K) (hm : m.check = true)
    (hne : m.triangles ≠ []) (hn : m.triangles.length ≤ 2 ^ 30) (r : Ray K)
    (hc : ∀ i c, m.corners i = some c → NotParallel zt r.direction c →
      Clear zt r.origin r.direction c ∨ EdgeHit zt r.origin r.direction c)
    (he : ∃ i c, m.corners i = some c ∧ NotParallel zt r.direction c ∧ EdgeHit zt r.origin r.direction c) :
    ∃ g, Query.new node maxd m false = .ok g ∧ g.isInside zt maxd junk r = .ok (false, false) := by
  obtain ⟨g, ids, h1, h2, h3, h4, h5, h6⟩ := hit_found node hm hne hn maxd false r
  refine ⟨g, h1, ?_⟩
  simp only [Query.isInside, Query.isInsideOpen, h3, h4, Bool.false_eq_true, if_false, h2]
  refine openLoop_stop hm r (false, false)
    (fun i => ∃ c, m.corners i = some c ∧ NotParallel zt r.direction c ∧ EdgeHit zt r.origin r.direction c) ?_ ids maxd false h5 ?_
  · intro i c rest t b hci
    by_cases hs : ∃ c, m.corners i = some c ∧ NotParallel zt r.direction c ∧ EdgeHit zt r.origin r.direction c
    · obtain ⟨c, k1, k2, k3⟩ := hs
      exact Or.inl (openLoop_edge hzt r k1 k2 k3 rest t b)
    · refine Or.inr ⟨hs, openLoop_pass hzt r hci ?_ rest t b⟩
      by_cases hp : NotParallel zt r.direction c
      · rcases hc i c hci hp with h | h
        · exact Or.inl h
        · exact absurd ⟨c, hci, hp, h⟩ hs
      · exact Or.inr hp
  · obtain ⟨i, c, k1, k2, k3⟩ := he
    obtain ⟨t, u, v, e1, e2, e3, e4, e5, -⟩ := id k3
    exact ⟨i, h6 i c t u v k1 e1 (by linarith) e3 e4 e5, c, k1, k2, k3⟩

/-- C56, open meshes: a point on the surface is outside. -/
theorem C56_open_surface (node : Node K) (zt maxd : K) (hzt : 0 < zt) (junk : Nat → V3 K) (m : Mesh K) (hm : m.check = true)
    (hne : m.triangles ≠ []) (hn : m.triangles.length ≤ 2 ^ 30) (r : Ray K)
    (hc : ∀ i c, m.corners i = some c → NotParallel zt r.direction c →
      Clear zt r.origin r.direction c ∨ SurfaceHit zt r.origin r.direction c)
    (he : ∃ i c, m.corners i = some c ∧ NotParallel zt r.direction c ∧ SurfaceHit zt r.origin r.direction c) :
    ∃ g, Query.new node maxd m false = .ok g ∧ g.isInside zt maxd junk r = .ok (false, true) := by
  obtain ⟨g, ids, h1, h2, h3, h4, h5, h6⟩ := hit_found node hm hne hn maxd false r
  refine ⟨g, h1, ?_⟩
  simp only [Query.isInside, Query.isInsideOpen, h3, h4, Bool.false_eq_true, if_false, h2]
  refine openLoop_stop hm r (false, true)
    (fun i => ∃ c, m.corners i = some c ∧ NotParallel zt r.direction c ∧ SurfaceHit zt r.origin r.direction c) ?_ ids maxd false h5 ?_
  · intro i c rest t b hci
    by_cases hs : ∃ c, m.corners i = some c ∧ NotParallel zt r.direction c ∧ SurfaceHit zt r.origin r.direction c
    · obtain ⟨c, k1, k2, k3⟩ := hs
      exact Or.inl (openLoop_surface hzt r k1 k2 k3 rest t b)
    · refine Or.inr ⟨hs, openLoop_pass hzt r hci ?_ rest t b⟩
      by_cases hp : NotParallel zt r.direction c
      · rcases hc i c hci hp with h | h
        · exact Or.inl h
        · exact absurd ⟨c, hci, hp, h⟩ hs
      · exact Or.inr hp
  · obtain ⟨i, c, k1, k2, k3⟩ := he
    obtain ⟨t, u, v, e1, e2, e3, e4, e5, e6⟩ := id k3
    exact ⟨i, h6 i c t u v k1 e1 e2 e4 e5 e6, c, k1, k2, k3⟩

/-- Both kinds of rays exist: through the middle of an edge, and from a point of the triangle. -/
example : EdgeHit (1 / 10 ^ 14 : ℚ) ⟨1, 0, -1⟩ ⟨0, 0, 1⟩ ⟨⟨0, 0, 0⟩, ⟨4, 0, 0⟩, ⟨0, 4, 0⟩⟩ ∧
    SurfaceHit (1 / 10 ^ 14 : ℚ) ⟨1, 1, 0⟩ ⟨0, 0, 1⟩ ⟨⟨0, 0, 0⟩, ⟨4, 0, 0⟩, ⟨0, 4, 0⟩⟩ ∧
    NotParallel (1 / 10 ^ 14 : ℚ) ⟨0, 0, 1⟩ ⟨⟨0, 0, 0⟩, ⟨4, 0, 0⟩, ⟨0, 4, 0⟩⟩ ∧ Sizable (1 / 10 ^ 14 : ℚ) ⟨⟨0, 0, 0⟩, ⟨4, 0, 0⟩, ⟨0, 4, 0⟩⟩ := by
  refine ⟨⟨1, 1 / 4, 0, ?_⟩, ⟨0, 1 / 4, 1 / 4, ?_⟩, ?_, ?_⟩ <;> norm_num [PlaneHit, NotParallel, Sizable, area2, triangleArea2]

/-- C56 is false without the hypotheses: for a triangle that is parallel to the ray, the test of closed meshes reads
three variables that nobody has written.  Two runs on the same mesh and ray can differ: one reports a success (with the
answer "outside"), the other a failure. -/
theorem C56_false_of_code :
    ∃ (node : Node ℚ) (m : Mesh ℚ) (r : Ray ℚ), m.check = true ∧ ∃ g, Query.new node (10 ^ 300) m true = .ok g ∧
      g.isInside (1 / 10 ^ 14) (10 ^ 300) (fun _ => ⟨0, 0, 0⟩) r = .ok (false, true) ∧
      g.isInside (1 / 10 ^ 14) (10 ^ 300) (fun _ => ⟨1, 0, 0⟩) r = .ok (false, false) := by
  refine ⟨⟨⟨⟨0, 0, 0⟩, ⟨0, 0, 0⟩⟩, 7, 7, 7, 7, 7, 7⟩, ⟨[⟨0, 0, 0⟩, ⟨1, 1, 1⟩, ⟨1, 1, 0⟩], [⟨0, 1, 2⟩], [⟨0, 0, 1⟩]⟩,
    ⟨⟨-1, -1, -1⟩, ⟨1, 1, 1⟩, ⟨false, false, false⟩⟩, by decide +kernel, ?_⟩
  have h : ∀ x : Except Fault (Query ℚ), (∃ g, x = .ok g) → ∃ g, x = .ok g ∧ x = .ok g := fun x ⟨g, h⟩ => ⟨g, h, h⟩
  obtain ⟨g, h1, -⟩ := h (Query.new ⟨⟨⟨0, 0, 0⟩, ⟨0, 0, 0⟩⟩, 7, 7, 7, 7, 7, 7⟩ (10 ^ 300)
    ⟨[⟨0, 0, 0⟩, ⟨1, 1, 1⟩, ⟨1, 1, 0⟩], [⟨0, 1, 2⟩], [⟨0, 0, 1⟩]⟩ true) (by
      obtain ⟨cs, t, h1, -⟩ := new_spec (K := ℚ) ⟨⟨⟨0, 0, 0⟩, ⟨0, 0, 0⟩⟩, 7, 7, 7, 7, 7, 7⟩ (10 ^ 300)
        (m := ⟨[⟨0, 0, 0⟩, ⟨1, 1, 1⟩, ⟨1, 1, 0⟩], [⟨0, 1, 2⟩], [⟨0, 0, 1⟩]⟩) (by decide +kernel) (by simp) true
      exact ⟨_, h1⟩)
  refine ⟨g, h1, ?_, ?_⟩
  · have e : ((Query.new (K := ℚ) ⟨⟨⟨0, 0, 0⟩, ⟨0, 0, 0⟩⟩, 7, 7, 7, 7, 7, 7⟩ (10 ^ 300)
      ⟨[⟨0, 0, 0⟩, ⟨1, 1, 1⟩, ⟨1, 1, 0⟩], [⟨0, 1, 2⟩], [⟨0, 0, 1⟩]⟩ true).bind fun g =>
        g.isInside (1 / 10 ^ 14) (10 ^ 300) (fun _ => ⟨0, 0, 0⟩) ⟨⟨-1, -1, -1⟩, ⟨1, 1, 1⟩, ⟨false, false, false⟩⟩).toOption = some (false, true) := by
      decide +kernel
    rw [h1] at e
    simp only [Except.bind] at e
    revert e
    cases Query.isInside _ _ _ g _ <;> simp [Except.toOption]
  · have e : ((Query.new (K := ℚ) ⟨⟨⟨0, 0, 0⟩, ⟨0, 0, 0⟩⟩, 7, 7, 7, 7, 7, 7⟩ (10 ^ 300)
      ⟨[⟨0, 0, 0⟩, ⟨1, 1, 1⟩, ⟨1, 1, 0⟩], [⟨0, 1, 2⟩], [⟨0, 0, 1⟩]⟩ true).bind fun g =>
        g.isInside (1 / 10 ^ 14) (10 ^ 300) (fun _ => ⟨1, 0, 0⟩) ⟨⟨-1, -1, -1⟩, ⟨1, 1, 1⟩, ⟨false, false, false⟩⟩).toOption = some (false, false) := by
      decide +kernel
    rw [h1] at e
    simp only [Except.bind] at e
    revert e
    cases Query.isInside _ _ _ g _ <;> simp [Except.toOption]

/-- For a valid mesh the ray test never fails, whatever the ray. -/
theorem isInside_ok (node : Node K) (zt maxd : K) (m : Mesh K) (hm : m.check = true) (hne : m.triangles ≠ [])
    (hn : m.triangles.length ≤ 2 ^ 30) (closed : Bool) : ∃ g, Query.new node maxd m closed = .ok g ∧
      ∀ (junk : Nat → V3 K) (r : Ray K), ∃ x, g.isInside zt maxd junk r = .ok x := by
  obtain ⟨cs, t, h1, h2, h3, h4⟩ := new_spec node maxd hm hn closed
  refine ⟨_, h1, fun junk r => ?_⟩
  obtain ⟨ids, h5, h6, h7, h8⟩ := ray_query node hne hn h2 h3 h4 r (zt := 1) one_pos
  unfold Query.isInside
  split_ifs
  · obtain ⟨x, hx⟩ := closedLoop_ok zt junk hm r ids 0 h7
    exact ⟨x, by simp only [Query.isInsideClosed, h5, hx]⟩
  · obtain ⟨x, hx⟩ := openLoop_ok zt hm r ids maxd false h7
    exact ⟨x, by simp only [Query.isInsideOpen, h5, hx]⟩

end QuESo.GQ

namespace QuESo.BRep
open QuESo.AABB QuESo.AABBTree QuESo.GQ QuESo.Spec QuESo.IO
variable {K : Type} [Field K] [LinearOrder K] [IsStrictOrderedRing K]

/-- The answers of the first five successful rays among the first 100. -/
def votes (res : Nat → Bool × Bool) : List Bool :=
  (((List.range 100).filter fun n => (res n).2).map fun n => (res n).1).take 5

omit [IsStrictOrderedRing K] in
/-- C48: the inside test is a strict majority of exactly five successful rays among at most 100: it says "inside" exactly
when the point is in the bounding box, five of the first 100 rays succeed and at least three of the first five
successful ones say "inside".  A tie is not possible. -/
theorem C48_majority (zt maxd : K) (junk : Nat → Nat → V3 K) (dirs : Nat → V3 K) (g : Query K) (p : V3 K) (res : Nat → Bool × Bool)
    (h : ∀ n < 100, g.isInside zt maxd (junk n) ⟨p, dirs n, ⟨false, false, false⟩⟩ = .ok (res n)) :
    ∃ b, isInside zt maxd junk dirs g p = .ok b ∧
      (b = true ↔ g.isWithinBoundingBox p = true ∧ (votes res).length = 5 ∧ 3 ≤ (votes res).count true) ∧
      ((votes res).length = 5 → (votes res).count true ≠ (votes res).count false) := by
  have hcnt : (votes res).count true + (votes res).count false = (votes res).length := by
    simp only [List.length_eq_countP_add_countP (fun b => b == true), List.count]
    congr 1
    apply List.countP_congr
    simp
  have htie : (votes res).length = 5 → (votes res).count true ≠ (votes res).count false := fun h5 he => by omega
  unfold isInside
  split_ifs with hb
  · have hl := voteLoop_spec (fun n => g.isInside zt maxd (junk n) (mkRay p (dirs n))) ((List.range 100).map res) 0 0 0
      (fun k hk => by
        simp only [List.length_map, List.length_range] at hk
        simpa [mkRay] using h k hk) (by omega)
    have hv : ((((List.range 100).map res).filter Prod.snd).map Prod.fst).take (5 - 0) = votes res := by
      unfold votes
      rw [List.filter_map, List.map_map]
      rfl
    rw [hv, List.length_map, List.length_range] at hl
    refine ⟨_, hl, ?_, htie⟩
    rw [decide_eq_true_eq]
    constructor
    · rintro ⟨a1, a2⟩
      exact ⟨hb, a1, by omega⟩
    · rintro ⟨-, a1, a2⟩
      exact ⟨a1, by omega⟩
  · exact ⟨false, rfl, by simp [hb], htie⟩

/-- C48: for a valid, non-empty mesh the inside test always ends with an answer, whatever the point, the random
directions and the content of uninitialised memory. -/
theorem C48_always_answers (node : Node K) (zt maxd : K) (m : Mesh K) (hm : m.check = true) (hne : m.triangles ≠ [])
    (hn : m.triangles.length ≤ 2 ^ 30) (closed : Bool) : ∃ g, Query.new node maxd m closed = .ok g ∧
      ∀ (junk : Nat → Nat → V3 K) (dirs : Nat → V3 K) (p : V3 K), ∃ b, isInside zt maxd junk dirs g p = .ok b := by
  obtain ⟨g, h1, h2⟩ := isInside_ok node zt maxd m hm hne hn closed
  refine ⟨g, h1, fun junk dirs p => ?_⟩
  unfold isInside
  split_ifs
  · exact voteLoop_ok _ (fun n => h2 _ _) _ _ _ _
  · exact ⟨_, rfl⟩

/-- C48: if the first five rays are well placed with respect to all triangles of significant area, the answer for a point
in the bounding box is "inside" if at least three of them go through an odd number of triangles and "outside" otherwise. -/
theorem C48_parity (node : Node K) (zt maxd : K) (hzt : 0 < zt) (m : Mesh K) (hm : m.check = true) (hne : m.triangles ≠ [])
    (hn : m.triangles.length ≤ 2 ^ 30) (p : V3 K) (dirs : Nat → V3 K) (junk : Nat → Nat → V3 K)
    (hc : ∀ n < 5, ∀ i c, m.corners i = some c → Sizable zt c → Clear zt p (dirs n) c) (odd : Nat → Bool)
    (ho : ∀ n < 5, odd n = true ↔ Odd (Set.ncard {i | ∃ c, m.corners i = some c ∧ Sizable zt c ∧ ClearHit zt p (dirs n) c})) :
    ∃ g b, Query.new node maxd m true = .ok g ∧ isInside zt maxd junk dirs g p = .ok b ∧
      (b = true ↔ g.isWithinBoundingBox p = true ∧ 3 ≤ ((List.range 5).map odd).count true) := by
  obtain ⟨g, h1, h2⟩ := isInside_ok node zt maxd m hm hne hn true
  choose res hres using fun n => h2 (junk n) ⟨p, dirs n, ⟨false, false, false⟩⟩
  have h5 : ∀ n < 5, res n = (odd n, true) := by
    intro n hn5
    obtain ⟨g', b, k1, k2, k3⟩ := C56_closed_parity_partial node zt maxd hzt (junk n) m hm hne hn ⟨p, dirs n, ⟨false, false, false⟩⟩ (hc n hn5)
    rw [h1] at k1
    cases k1
    rw [hres n] at k2
    cases hr : res n with
    | mk x y =>
      rw [hr] at k2
      simp only [Except.ok.injEq, Prod.mk.injEq] at k2
      rw [k2.1, k2.2]
      congr 1
      rw [Bool.eq_iff_iff, k3, ho n hn5]
  have hv : votes res = (List.range 5).map odd := by
    unfold votes
    rw [show List.range 100 = [0, 1, 2, 3, 4] ++ (List.range 95).map (· + 5) by decide]
    rw [List.filter_append, List.map_append]
    have hf : [0, 1, 2, 3, 4].filter (fun n => (res n).2) = [0, 1, 2, 3, 4] := by
      rw [List.filter_eq_self]
      intro a ha
      rw [h5 a (by fin_cases ha <;> omega)]
    rw [hf, List.take_append_of_le_length (by simp)]
    simp only [List.map_cons, List.map_nil, h5 0 (by omega), h5 1 (by omega), h5 2 (by omega), h5 3 (by omega), h5 4 (by omega),
      List.take_succ_cons, List.take_zero]
    rfl
  obtain ⟨b, k1, k2, -⟩ := C48_majority zt maxd junk dirs g p res (fun n _ => hres n)
  rw [hv] at k2
  refine ⟨g, b, h1, k1, k2.trans ?_⟩
  simp

/-- C48: the state of a cell that the surface does not cut is decided by the inside test for its centre; a cut cell is trimmed. -/
theorem C48_state (zt maxd : K) (junk : Nat → Nat → V3 K) (dirs : Nat → V3 K) (g : Query K) (lo up : V3 K) (tol : K) (cut inside : Bool)
    (h1 : g.doIntersect lo up tol = .ok cut)
    (h2 : isInside zt maxd junk dirs g ⟨(lo.x + up.x) / 2, (lo.y + up.y) / 2, (lo.z + up.z) / 2⟩ = .ok inside) :
    intersectionState zt maxd junk dirs g lo up tol =
      .ok (if cut then .trimmed else if inside then .inside else .outside) := by
  have hc : V3.scale (1 / 2) (up + lo) = (⟨(lo.x + up.x) / 2, (lo.y + up.y) / 2, (lo.z + up.z) / 2⟩ : V3 K) := by
    simp only [V3.scale, V3.add_x, V3.add_y, V3.add_z, V3.mk.injEq]
    refine ⟨?_, ?_, ?_⟩ <;> ring
  unfold intersectionState
  rw [h1, hc, h2]
  cases cut <;> rfl

/-- The surface of a tetrahedron. -/
def tetra : Mesh ℚ :=
  ⟨[⟨0, 0, 0⟩, ⟨4, 0, 0⟩, ⟨0, 4, 0⟩, ⟨0, 0, 4⟩], [⟨0, 2, 1⟩, ⟨0, 1, 3⟩, ⟨0, 3, 2⟩, ⟨1, 2, 3⟩], [⟨0, 0, -1⟩, ⟨0, -1, 0⟩, ⟨-1, 0, 0⟩, ⟨1, 1, 1⟩]⟩

/-- The hypotheses of `C48_parity` are met: from the point (1, 1/2, 3/4) in the tetrahedron the ray in direction (1, 1, 1)
is well placed with respect to all four triangles and goes through exactly one of them. -/
example : tetra.check = true ∧ (∀ i c, tetra.corners i = some c → Sizable (1 / 10 ^ 14) c →
      Clear (1 / 10 ^ 14 : ℚ) ⟨1, 1 / 2, 3 / 4⟩ ⟨1, 1, 1⟩ c) ∧
    {i | ∃ c, tetra.corners i = some c ∧ Sizable (1 / 10 ^ 14) c ∧ ClearHit (1 / 10 ^ 14 : ℚ) ⟨1, 1 / 2, 3 / 4⟩ ⟨1, 1, 1⟩ c} = {3} := by
  have m0 : ClearMiss (1 / 10 ^ 14 : ℚ) ⟨1, 1 / 2, 3 / 4⟩ ⟨1, 1, 1⟩ ⟨⟨0, 0, 0⟩, ⟨0, 4, 0⟩, ⟨4, 0, 0⟩⟩ := by
    rintro t u v ⟨h1, h2, h3⟩; simp only at h1 h2 h3; left; linarith
  have m1 : ClearMiss (1 / 10 ^ 14 : ℚ) ⟨1, 1 / 2, 3 / 4⟩ ⟨1, 1, 1⟩ ⟨⟨0, 0, 0⟩, ⟨4, 0, 0⟩, ⟨0, 0, 4⟩⟩ := by
    rintro t u v ⟨h1, h2, h3⟩; simp only at h1 h2 h3; left; linarith
  have m2 : ClearMiss (1 / 10 ^ 14 : ℚ) ⟨1, 1 / 2, 3 / 4⟩ ⟨1, 1, 1⟩ ⟨⟨0, 0, 0⟩, ⟨0, 0, 4⟩, ⟨0, 4, 0⟩⟩ := by
    rintro t u v ⟨h1, h2, h3⟩; simp only at h1 h2 h3; left; linarith
  have h3 : ClearHit (1 / 10 ^ 14 : ℚ) ⟨1, 1 / 2, 3 / 4⟩ ⟨1, 1, 1⟩ ⟨⟨4, 0, 0⟩, ⟨0, 4, 0⟩, ⟨0, 0, 4⟩⟩ :=
    ⟨7 / 12, 13 / 48, 1 / 3, ⟨by norm_num, by norm_num, by norm_num⟩, by norm_num, by norm_num, by norm_num, by norm_num⟩
  have c0 : tetra.corners 0 = some ⟨⟨0, 0, 0⟩, ⟨0, 4, 0⟩, ⟨4, 0, 0⟩⟩ := by decide +kernel
  have c1 : tetra.corners 1 = some ⟨⟨0, 0, 0⟩, ⟨4, 0, 0⟩, ⟨0, 0, 4⟩⟩ := by decide +kernel
  have c2 : tetra.corners 2 = some ⟨⟨0, 0, 0⟩, ⟨0, 0, 4⟩, ⟨0, 4, 0⟩⟩ := by decide +kernel
  have c3 : tetra.corners 3 = some ⟨⟨4, 0, 0⟩, ⟨0, 4, 0⟩, ⟨0, 0, 4⟩⟩ := by decide +kernel
  have hlt : ∀ i c, tetra.corners i = some c → i = 0 ∨ i = 1 ∨ i = 2 ∨ i = 3 := fun i c h => by
    have : i < 4 := corners_lt h
    omega
  refine ⟨by decide +kernel, fun i c hi _ => ?_, ?_⟩
  · rcases hlt i c hi with rfl | rfl | rfl | rfl
    · rw [c0] at hi; cases hi
      exact ⟨by norm_num [NotParallel, area2, triangleArea2], Or.inr m0⟩
    · rw [c1] at hi; cases hi
      exact ⟨by norm_num [NotParallel, area2, triangleArea2], Or.inr m1⟩
    · rw [c2] at hi; cases hi
      exact ⟨by norm_num [NotParallel, area2, triangleArea2], Or.inr m2⟩
    · rw [c3] at hi; cases hi
      exact ⟨by norm_num [NotParallel, area2, triangleArea2], Or.inl h3⟩
  · ext i
    simp only [Set.mem_setOf_eq, Set.mem_singleton_iff]
    constructor
    · rintro ⟨c, hi, -, hh⟩
      have hz : (0 : ℚ) < 1 / 10 ^ 14 := by norm_num
      rcases hlt i c hi with rfl | rfl | rfl | rfl
      · rw [c0] at hi; cases hi; exact (hit_miss_excl hz hh m0).elim
      · rw [c1] at hi; cases hi; exact (hit_miss_excl hz hh m1).elim
      · rw [c2] at hi; cases hi; exact (hit_miss_excl hz hh m2).elim
      · rfl
    · rintro rfl
      exact ⟨_, c3, by norm_num [Sizable, area2, triangleArea2], h3⟩

/-- The whole test on the tetrahedron, for a point inside and a point outside (but in the bounding box), and the
triangle search for a box around a corner. -/
example : ((Query.new (K := ℚ) ⟨⟨⟨0, 0, 0⟩, ⟨0, 0, 0⟩⟩, 7, 7, 7, 7, 7, 7⟩ (10 ^ 300) tetra true).bind fun g =>
      (isInside (K := ℚ) (1 / 10 ^ 14) (10 ^ 300) (fun _ _ => ⟨0, 0, 0⟩) (fun n => ⟨1, 1, 1 + n / 10⟩) g ⟨1, 1 / 2, 3 / 4⟩).bind fun a =>
      (isInside (K := ℚ) (1 / 10 ^ 14) (10 ^ 300) (fun _ _ => ⟨0, 0, 0⟩) (fun n => ⟨1, 1, 1 + n / 10⟩) g ⟨3, 3, 3⟩).bind fun b =>
      (g.intersectedTriangleIds ⟨-1, -1, -1⟩ ⟨1, 1, 1⟩ (1 / 1000)).map fun ids => (a, b, ids)).toOption = some (true, false, [2, 1, 0]) := by
  decide +kernel

end QuESo.BRep
