import Verif.Proofs.Ray

/-!
# C27 - C30: box, ray and triangle tests
-/
namespace QuESo
open QuESo.AABB QuESo.Spec
variable {K : Type _} [Field K] [LinearOrder K]

/-- C27: a box is made exactly if its bounds are ordered, and it has the given bounds. -/
theorem C27_constructor (lower upper : V3 K) (b : Box K) : mk? lower upper = some b ↔ Ordered b ∧ b = ⟨lower, upper⟩ := by
  unfold mk?
  split_ifs with h1 h2 h3 <;> try simp only [not_lt] at *
  · simp only [reduceCtorEq, false_iff]; rintro ⟨⟨g, -, -⟩, rfl⟩; exact absurd h1 (not_lt.2 g)
  · simp only [reduceCtorEq, false_iff]; rintro ⟨⟨-, g, -⟩, rfl⟩; exact absurd h2 (not_lt.2 g)
  · simp only [reduceCtorEq, false_iff]; rintro ⟨⟨-, -, g⟩, rfl⟩; exact absurd h3 (not_lt.2 g)
  · constructor
    · intro h
      simp only [Option.some.injEq] at h
      subst h
      exact ⟨⟨h1, h2, h3⟩, rfl⟩
    · rintro ⟨-, rfl⟩; rfl

/-- C27: the box-box test is true exactly when the boxes have a common point. -/
theorem C27_common_point (a b : Box K) (ha : Ordered a) (hb : Ordered b) :
    intersectBox a b = true ↔ ∃ q, InBox a q ∧ InBox b q := by
  obtain ⟨a1, a2, a3⟩ := ha
  obtain ⟨b1, b2, b3⟩ := hb
  rw [intersectBox_iff]
  constructor
  · rintro ⟨⟨x1, x2⟩, ⟨y1, y2⟩, z1, z2⟩
    refine ⟨⟨max a.lower.x b.lower.x, max a.lower.y b.lower.y, max a.lower.z b.lower.z⟩, ⟨⟨?_, ?_⟩, ⟨?_, ?_⟩, ⟨?_, ?_⟩⟩,
      ⟨⟨?_, ?_⟩, ⟨?_, ?_⟩, ⟨?_, ?_⟩⟩⟩ <;> simp only [le_max_iff, max_le_iff, le_refl, true_or, or_true, and_self, *]
  · rintro ⟨q, ⟨⟨x1, x2⟩, ⟨y1, y2⟩, z1, z2⟩, ⟨⟨x3, x4⟩, ⟨y3, y4⟩, z3, z4⟩⟩
    exact ⟨⟨x1.trans x4, x3.trans x2⟩, ⟨y1.trans y4, y3.trans y2⟩, z1.trans z4, z3.trans z2⟩

example : Ordered (⟨⟨0, 0, 0⟩, ⟨2, 2, 2⟩⟩ : Box ℚ) ∧ Ordered (⟨⟨1, 2, 0⟩, ⟨3, 3, 3⟩⟩ : Box ℚ) ∧
    intersectBox (⟨⟨0, 0, 0⟩, ⟨2, 2, 2⟩⟩ : Box ℚ) ⟨⟨1, 2, 0⟩, ⟨3, 3, 3⟩⟩ = true ∧
    intersectBox (⟨⟨0, 0, 0⟩, ⟨2, 2, 2⟩⟩ : Box ℚ) ⟨⟨1, 5 / 2, 0⟩, ⟨3, 3, 3⟩⟩ = false := by
  refine ⟨?_, ?_, ?_, ?_⟩ <;> first | decide +kernel | (unfold Ordered; decide +kernel)

/-- C27: the box-box test is symmetric. -/
theorem C27_symmetric (a b : Box K) : intersectBox a b = intersectBox b a := by
  rw [Bool.eq_iff_iff, intersectBox_iff, intersectBox_iff]
  tauto

/-- C27: the merged box is the smallest box that contains both. -/
theorem C27_merge (a b : Box K) (ha : Ordered a) (hb : Ordered b) :
    Ordered (merge a b) ∧ BoxLe a (merge a b) ∧ BoxLe b (merge a b) ∧
      ∀ c, Ordered c → BoxLe a c → BoxLe b c → BoxLe (merge a b) c := by
  obtain ⟨a1, a2, a3⟩ := ha
  obtain ⟨b1, b2, b3⟩ := hb
  refine ⟨⟨?_, ?_, ?_⟩, ?_, ?_, ?_⟩
  · exact (min_le_left _ _).trans (a1.trans (le_max_left _ _))
  · exact (min_le_left _ _).trans (a2.trans (le_max_left _ _))
  · exact (min_le_left _ _).trans (a3.trans (le_max_left _ _))
  · rintro q ⟨⟨x1, x2⟩, ⟨y1, y2⟩, z1, z2⟩
    refine ⟨⟨?_, ?_⟩, ⟨?_, ?_⟩, ⟨?_, ?_⟩⟩ <;> simp only [merge, min_le_iff, le_max_iff, *, true_or]
  · rintro q ⟨⟨x1, x2⟩, ⟨y1, y2⟩, z1, z2⟩
    refine ⟨⟨?_, ?_⟩, ⟨?_, ?_⟩, ⟨?_, ?_⟩⟩ <;> simp only [merge, min_le_iff, le_max_iff, *, or_true]
  · intro c _ hac hbc
    have l := hac a.lower ⟨⟨le_rfl, a1⟩, ⟨le_rfl, a2⟩, le_rfl, a3⟩
    have u := hac a.upper ⟨⟨a1, le_rfl⟩, ⟨a2, le_rfl⟩, a3, le_rfl⟩
    have l' := hbc b.lower ⟨⟨le_rfl, b1⟩, ⟨le_rfl, b2⟩, le_rfl, b3⟩
    have u' := hbc b.upper ⟨⟨b1, le_rfl⟩, ⟨b2, le_rfl⟩, b3, le_rfl⟩
    rintro q ⟨⟨x1, x2⟩, ⟨y1, y2⟩, z1, z2⟩
    obtain ⟨⟨lx, _⟩, ⟨ly, _⟩, lz, _⟩ := l
    obtain ⟨⟨_, ux⟩, ⟨_, uy⟩, _, uz⟩ := u
    obtain ⟨⟨lx', _⟩, ⟨ly', _⟩, lz', _⟩ := l'
    obtain ⟨⟨_, ux'⟩, ⟨_, uy'⟩, _, uz'⟩ := u'
    exact ⟨⟨(le_min lx lx').trans x1, x2.trans (max_le ux ux')⟩, ⟨(le_min ly ly').trans y1, y2.trans (max_le uy uy')⟩,
      (le_min lz lz').trans z1, z2.trans (max_le uz uz')⟩

variable [IsStrictOrderedRing K]

/-- C28: for a ray none of whose direction components is zero (in particular for positive directions, where the
faster test is used) the ray-box test is true exactly when some point of the ray lies in the box. -/
theorem C28_exact (r : Ray K) (b : Box K) (hb : Ordered b) (hx : r.direction.x ≠ 0) (hy : r.direction.y ≠ 0)
    (hz : r.direction.z ≠ 0) : r.intersectBox b = true ↔ ∃ q, OnRay r.origin r.direction q ∧ InBox b q := by
  unfold Ray.intersectBox
  split_ifs with hp
  · unfold Ray.positiveDir at hp
    split_ifs at hp with h
    simp only [not_or, not_le] at h
    rw [positive_eq_general r b h.1 h.2.1 h.2.2]
    exact general_exact r b hb hx hy hz
  · exact general_exact r b hb hx hy hz

/-- C28: the ray-box test never misses a box that the ray meets, whatever the direction (also when components
are zero of either sign, when infinities and not-a-number arise). -/
theorem C28_never_misses (r : Ray K) (b : Box K) (h : ∃ q, OnRay r.origin r.direction q ∧ InBox b q) :
    r.intersectBox b = true := by
  unfold Ray.intersectBox
  split_ifs with hp
  · unfold Ray.positiveDir at hp
    split_ifs at hp with g
    simp only [not_or, not_le] at g
    rw [positive_eq_general r b g.1 g.2.1 g.2.2]
    exact general_of_point r b h
  · exact general_of_point r b h

/-- Rays in positive, general and axis-parallel direction that meet the unit box; the last one does not start in it. -/
example : (Ray.mk (⟨-1, -1, -1⟩ : V3 ℚ) ⟨1, 1, 1⟩ ⟨false, false, false⟩).intersectBox ⟨⟨0, 0, 0⟩, ⟨1, 1, 1⟩⟩ = true ∧
    (Ray.mk (⟨-1, 2, -1⟩ : V3 ℚ) ⟨1, -1, 1⟩ ⟨false, false, false⟩).intersectBox ⟨⟨0, 0, 0⟩, ⟨1, 1, 1⟩⟩ = true ∧
    (Ray.mk (⟨-1, 3, -1⟩ : V3 ℚ) ⟨1, -1, 1⟩ ⟨false, false, false⟩).intersectBox ⟨⟨0, 0, 0⟩, ⟨1, 1, 1⟩⟩ = true ∧
    (Ray.mk (⟨-1, 4, -1⟩ : V3 ℚ) ⟨1, -1, 1⟩ ⟨false, false, false⟩).intersectBox ⟨⟨0, 0, 0⟩, ⟨1, 1, 1⟩⟩ = false ∧
    (Ray.mk (⟨-1, 0, 1⟩ : V3 ℚ) ⟨1, 0, 0⟩ ⟨false, true, false⟩).intersectBox ⟨⟨0, 0, 0⟩, ⟨1, 1, 1⟩⟩ = true := by
  decide +kernel

/-- C28: with a zero component the test can also be true although the ray misses the box: `0 * inf` is not a
number and all comparisons with it are false. -/
theorem C28_zero_component_not_exact :
    (Ray.mk (⟨0, 5, 0⟩ : V3 ℚ) ⟨0, 1, 1⟩ ⟨false, false, false⟩).intersectBox ⟨⟨0, 0, -6⟩, ⟨1, 1, -5⟩⟩ = true ∧
    ¬ ∃ q, OnRay (⟨0, 5, 0⟩ : V3 ℚ) ⟨0, 1, 1⟩ q ∧ InBox ⟨⟨0, 0, -6⟩, ⟨1, 1, -5⟩⟩ q := by
  refine ⟨by decide +kernel, ?_⟩
  rintro ⟨q, ⟨t, t0, -, q2, -⟩, -, ⟨-, h⟩, -⟩
  simp only at q2 h
  linarith

/-- C29: if the ray-triangle test succeeds and the triangle is not parallel, the point at `t` on the ray is the
point with barycentric coordinates `u`, `v` of the triangle, these are valid up to the tolerance, `t` is not
before the origin, and the triangle is reported as back facing exactly when the ray leaves through its back. -/
theorem C29_hit (zt : K) (hzt : 0 < zt) (r : Ray K) (v0 v1 v2 : V3 K) (t u v : K) (back : Bool)
    (h : r.intersectTri zt v0 v1 v2 = ⟨true, some t, some u, some v, back, false⟩) :
    (r.origin.x + t * r.direction.x = (1 - u - v) * v0.x + u * v1.x + v * v2.x ∧
     r.origin.y + t * r.direction.y = (1 - u - v) * v0.y + u * v1.y + v * v2.y ∧
     r.origin.z + t * r.direction.z = (1 - u - v) * v0.z + u * v1.z + v * v2.z) ∧
    -zt ≤ u ∧ -zt ≤ v ∧ u + v ≤ 1 + zt ∧ -zt ≤ t ∧
    (back = true ↔ 0 < V3.dot r.direction (V3.cross (v1 - v0) (v2 - v0))) := by
  unfold Ray.intersectTri at h
  simp only at h
  set det := V3.dot (v1 - v0) (V3.cross r.direction (v2 - v0)) with hdet
  have hd' : det = -V3.dot r.direction (V3.cross (v1 - v0) (v2 - v0)) := by
    rw [hdet]; simp only [V3.dot, V3.cross, V3.sub_x, V3.sub_y, V3.sub_z]; ring
  split_ifs at h with h1 h2 h3 h4 <;> simp only [TriHit.mk.injEq, Option.some.injEq, reduceCtorEq, true_and, and_true, false_and,
    Bool.false_eq_true, and_false] at h
  obtain ⟨ht, hu, hv, hb⟩ := h
  simp only [not_or, not_lt] at h1 h2 h3 h4
  have hne : det ≠ 0 := by
    intro e; rw [e] at h1; simp only [abs_zero] at h1; linarith
  rw [hu, hv] at h3
  rw [hu] at h2
  rw [ht] at h4
  refine ⟨?_, h2.1, h3.1, h3.2, h4, ?_⟩
  · have eu : u * det = V3.dot (r.origin - v0) (V3.cross r.direction (v2 - v0)) := by rw [← hu]; field_simp
    have ev : v * det = V3.dot r.direction (V3.cross (r.origin - v0) (v1 - v0)) := by rw [← hv]; field_simp
    have et : t * det = V3.dot (v2 - v0) (V3.cross (r.origin - v0) (v1 - v0)) := by rw [← ht]; field_simp
    simp only [V3.dot, V3.cross, V3.sub_x, V3.sub_y, V3.sub_z] at eu ev et hdet
    refine ⟨?_, ?_, ?_⟩ <;> apply mul_right_cancel₀ hne
    · linear_combination r.direction.x * et - (v1.x - v0.x) * eu - (v2.x - v0.x) * ev + (r.origin.x - v0.x) * hdet
    · linear_combination r.direction.y * et - (v1.y - v0.y) * eu - (v2.y - v0.y) * ev + (r.origin.y - v0.y) * hdet
    · linear_combination r.direction.z * et - (v1.z - v0.z) * eu - (v2.z - v0.z) * ev + (r.origin.z - v0.z) * hdet
  · rw [← hb, decide_eq_true_eq]
    rw [abs_eq_max_neg, le_max_iff] at h1
    constructor
    · intro hlt
      rcases h1 with g | g <;> linarith
    · intro hlt
      linarith

/-- C29: no hit is missed: if the ray meets the triangle and is not parallel to it, the test succeeds and reports
the parameters of the hit. -/
theorem C29_complete (zt : K) (hzt : 0 < zt) (r : Ray K) (v0 v1 v2 : V3 K) (t u v : K)
    (hn : 10 * zt ≤ |V3.dot r.direction (V3.cross (v1 - v0) (v2 - v0))|) (ht : 0 ≤ t) (hu : 0 ≤ u) (hv : 0 ≤ v) (huv : u + v ≤ 1)
    (hx : r.origin.x + t * r.direction.x = (1 - u - v) * v0.x + u * v1.x + v * v2.x)
    (hy : r.origin.y + t * r.direction.y = (1 - u - v) * v0.y + u * v1.y + v * v2.y)
    (hz : r.origin.z + t * r.direction.z = (1 - u - v) * v0.z + u * v1.z + v * v2.z) :
    ∃ back, r.intersectTri zt v0 v1 v2 = ⟨true, some t, some u, some v, back, false⟩ := by
  unfold Ray.intersectTri
  simp only
  set det := V3.dot (v1 - v0) (V3.cross r.direction (v2 - v0)) with hdet
  have hd' : det = -V3.dot r.direction (V3.cross (v1 - v0) (v2 - v0)) := by
    rw [hdet]; simp only [V3.dot, V3.cross, V3.sub_x, V3.sub_y, V3.sub_z]; ring
  have h1 : 10 * zt ≤ |det| := by rw [hd', abs_neg]; exact hn
  have hne : det ≠ 0 := by
    intro e; rw [e] at h1; simp only [abs_zero] at h1; linarith
  have ox : r.origin.x = (1 - u - v) * v0.x + u * v1.x + v * v2.x - t * r.direction.x := by linarith
  have oy : r.origin.y = (1 - u - v) * v0.y + u * v1.y + v * v2.y - t * r.direction.y := by linarith
  have oz : r.origin.z = (1 - u - v) * v0.z + u * v1.z + v * v2.z - t * r.direction.z := by linarith
  have eu : V3.dot (r.origin - v0) (V3.cross r.direction (v2 - v0)) * (1 / det) = u := by
    rw [mul_one_div, div_eq_iff hne, hdet]
    simp only [V3.dot, V3.cross, V3.sub_x, V3.sub_y, V3.sub_z, ox, oy, oz]; ring
  have ev : V3.dot r.direction (V3.cross (r.origin - v0) (v1 - v0)) * (1 / det) = v := by
    rw [mul_one_div, div_eq_iff hne, hdet]
    simp only [V3.dot, V3.cross, V3.sub_x, V3.sub_y, V3.sub_z, ox, oy, oz]; ring
  have et : V3.dot (v2 - v0) (V3.cross (r.origin - v0) (v1 - v0)) * (1 / det) = t := by
    rw [mul_one_div, div_eq_iff hne, hdet]
    simp only [V3.dot, V3.cross, V3.sub_x, V3.sub_y, V3.sub_z, ox, oy, oz]; ring
  rw [eu, ev, et, if_neg (not_lt.2 h1), if_neg, if_neg, if_neg]
  · exact ⟨_, rfl⟩
  · linarith
  · push Not; constructor <;> linarith
  · push Not; constructor <;> linarith

/-- C29: a parallel triangle is always reported as a success, and then the parameters have not been written. -/
theorem C29_parallel (zt : K) (r : Ray K) (v0 v1 v2 : V3 K) :
    (r.intersectTri zt v0 v1 v2).parallel = true ↔ |V3.dot r.direction (V3.cross (v1 - v0) (v2 - v0))| < 10 * zt := by
  have hd' : V3.dot (v1 - v0) (V3.cross r.direction (v2 - v0)) = -V3.dot r.direction (V3.cross (v1 - v0) (v2 - v0)) := by
    simp only [V3.dot, V3.cross, V3.sub_x, V3.sub_y, V3.sub_z]; ring
  unfold Ray.intersectTri
  simp only [hd', abs_neg]
  split_ifs <;> simp_all

theorem C29_parallel_writes_nothing (zt : K) (r : Ray K) (v0 v1 v2 : V3 K)
    (h : (r.intersectTri zt v0 v1 v2).parallel = true) :
    r.intersectTri zt v0 v1 v2 = ⟨true, none, none, none, false, true⟩ := by
  unfold Ray.intersectTri at *
  simp only at *
  split_ifs at * <;> simp_all

example : (Ray.mk (⟨0, 0, -1⟩ : V3 ℚ) ⟨0, 0, 1⟩ ⟨false, false, false⟩).intersectTri (1 / 10 ^ 14) ⟨-1, -1, 0⟩ ⟨3, -1, 0⟩ ⟨-1, 3, 0⟩ =
    ⟨true, some 1, some (1 / 4), some (1 / 4), true, false⟩ := by
  decide +kernel

/-- C30: a triangle that shares a point with the box (shrunk by the tolerance) is never missed. -/
theorem C30_never_misses (b : Box K) (v0 v1 v2 : V3 K) (tol : K)
    (h : ∃ q, InTriangle v0 v1 v2 q ∧ InBoxTol b.lower b.upper (-tol) q) : intersectTri b v0 v1 v2 tol = true := by
  obtain ⟨q, h1, h2⟩ := h
  rw [intersectTri_all]
  exact fun n _ => check_of_point h1 h2 n

/-- C30: the separating-axis test is exact: it is true exactly when the triangle (degenerate or not) and the box
shrunk by the tolerance share a point.  The shrunk box must not be turned inside out. -/
theorem C30_exact (b : Box K) (v0 v1 v2 : V3 K) (tol : K) (hx : 2 * tol ≤ b.upper.x - b.lower.x)
    (hy : 2 * tol ≤ b.upper.y - b.lower.y) (hz : 2 * tol ≤ b.upper.z - b.lower.z) :
    intersectTri b v0 v1 v2 tol = true ↔ ∃ q, InTriangle v0 v1 v2 q ∧ InBoxTol b.lower b.upper (-tol) q := by
  constructor
  · refine point_of_check ?_ ?_ ?_ <;> simp only [extent] <;> linarith
  · exact C30_never_misses b v0 v1 v2 tol

/-- A triangle that no face of the box and no face of the triangle separates from the box, only an edge pair. -/
example : intersectTri (⟨⟨-1, -1, -1⟩, ⟨1, 1, 1⟩⟩ : Box ℚ) ⟨3, 0, 0⟩ ⟨0, 3, 0⟩ ⟨5, 5, 1⟩ 0 = false ∧
    intersectTri (⟨⟨-1, -1, -1⟩, ⟨1, 1, 1⟩⟩ : Box ℚ) ⟨2, 0, 0⟩ ⟨0, 2, 0⟩ ⟨5, 5, 1⟩ 0 = true ∧
    intersectTri (⟨⟨-1, -1, -1⟩, ⟨1, 1, 1⟩⟩ : Box ℚ) ⟨2, 0, 0⟩ ⟨0, 2, 0⟩ ⟨5, 5, 1⟩ (1 / 100) = false := by
  decide +kernel

end QuESo
