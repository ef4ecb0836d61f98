import Verif.Proofs.Surface

/-! # Proofs about the box mesh -/
namespace QuESo.MeshUtil
open QuESo.Spec QuESo.IO QuESo.BRep
variable {K : Type} [Field K] [LinearOrder K] [IsStrictOrderedRing K]

/-- The triangles of the box. -/
def boxTris (l u : V3 K) : List (Tri K) :=
  let v0 : V3 K := ⟨l.x, l.y, l.z⟩
  let v1 : V3 K := ⟨u.x, l.y, l.z⟩
  let v2 : V3 K := ⟨l.x, u.y, l.z⟩
  let v3 : V3 K := ⟨u.x, u.y, l.z⟩
  let v4 : V3 K := ⟨l.x, l.y, u.z⟩
  let v5 : V3 K := ⟨u.x, l.y, u.z⟩
  let v6 : V3 K := ⟨l.x, u.y, u.z⟩
  let v7 : V3 K := ⟨u.x, u.y, u.z⟩
  [⟨v0, v6, v2, ⟨-1, 0, 0⟩⟩, ⟨v0, v4, v6, ⟨-1, 0, 0⟩⟩, ⟨v1, v7, v5, ⟨1, 0, 0⟩⟩, ⟨v1, v3, v7, ⟨1, 0, 0⟩⟩,
   ⟨v4, v1, v5, ⟨0, -1, 0⟩⟩, ⟨v4, v0, v1, ⟨0, -1, 0⟩⟩, ⟨v6, v7, v3, ⟨0, 1, 0⟩⟩, ⟨v6, v3, v2, ⟨0, 1, 0⟩⟩,
   ⟨v1, v0, v3, ⟨0, 0, -1⟩⟩, ⟨v0, v2, v3, ⟨0, 0, -1⟩⟩, ⟨v4, v5, v7, ⟨0, 0, 1⟩⟩, ⟨v4, v7, v6, ⟨0, 0, 1⟩⟩]

theorem makeMeshBox_has (l u : V3 K) : Has (makeMeshBox l u) (boxTris l u) := by
  have h0 : Has (⟨[], [], []⟩ : Mesh K) [] := ⟨rfl, rfl⟩
  have h := has_addVertices h0 [⟨l.x, l.y, l.z⟩, ⟨u.x, l.y, l.z⟩, ⟨l.x, u.y, l.z⟩, ⟨u.x, u.y, l.z⟩, ⟨l.x, l.y, u.z⟩, ⟨u.x, l.y, u.z⟩,
    ⟨l.x, u.y, u.z⟩, ⟨u.x, u.y, u.z⟩]
  have h := has_addTriangle (t := ⟨0, 6, 2⟩) (n := ⟨-1, 0, 0⟩) h rfl rfl rfl
  have h := has_addTriangle (t := ⟨0, 4, 6⟩) (n := ⟨-1, 0, 0⟩) h rfl rfl rfl
  have h := has_addTriangle (t := ⟨1, 7, 5⟩) (n := ⟨1, 0, 0⟩) h rfl rfl rfl
  have h := has_addTriangle (t := ⟨1, 3, 7⟩) (n := ⟨1, 0, 0⟩) h rfl rfl rfl
  have h := has_addTriangle (t := ⟨4, 1, 5⟩) (n := ⟨0, -1, 0⟩) h rfl rfl rfl
  have h := has_addTriangle (t := ⟨4, 0, 1⟩) (n := ⟨0, -1, 0⟩) h rfl rfl rfl
  have h := has_addTriangle (t := ⟨6, 7, 3⟩) (n := ⟨0, 1, 0⟩) h rfl rfl rfl
  have h := has_addTriangle (t := ⟨6, 3, 2⟩) (n := ⟨0, 1, 0⟩) h rfl rfl rfl
  have h := has_addTriangle (t := ⟨1, 0, 3⟩) (n := ⟨0, 0, -1⟩) h rfl rfl rfl
  have h := has_addTriangle (t := ⟨0, 2, 3⟩) (n := ⟨0, 0, -1⟩) h rfl rfl rfl
  have h := has_addTriangle (t := ⟨4, 5, 7⟩) (n := ⟨0, 0, 1⟩) h rfl rfl rfl
  have h := has_addTriangle (t := ⟨4, 7, 6⟩) (n := ⟨0, 0, 1⟩) h rfl rfl rfl
  exact h

theorem box_volume (l u : V3 K) : volume6 (boxTris l u) = 6 * ((u.x - l.x) * (u.y - l.y) * (u.z - l.z)) := by
  simp only [volume6, boxTris, List.map_cons, List.map_nil, List.sum_cons, List.sum_nil]
  ring

theorem norm_x {norm : V3 K → K} (hn : IsNorm3 norm) (a : K) : norm ⟨a, 0, 0⟩ = |a| := by
  obtain ⟨h1, h2⟩ := hn ⟨a, 0, 0⟩
  have : norm ⟨a, 0, 0⟩ ^ 2 = |a| ^ 2 := by rw [h2, sq_abs]; ring
  exact (pow_left_inj₀ h1 (abs_nonneg a) (by norm_num)).1 this

theorem norm_y {norm : V3 K → K} (hn : IsNorm3 norm) (a : K) : norm ⟨0, a, 0⟩ = |a| := by
  obtain ⟨h1, h2⟩ := hn ⟨0, a, 0⟩
  have : norm ⟨0, a, 0⟩ ^ 2 = |a| ^ 2 := by rw [h2, sq_abs]; ring
  exact (pow_left_inj₀ h1 (abs_nonneg a) (by norm_num)).1 this

theorem norm_z {norm : V3 K → K} (hn : IsNorm3 norm) (a : K) : norm ⟨0, 0, a⟩ = |a| := by
  obtain ⟨h1, h2⟩ := hn ⟨0, 0, a⟩
  have : norm ⟨0, 0, a⟩ ^ 2 = |a| ^ 2 := by rw [h2, sq_abs]; ring
  exact (pow_left_inj₀ h1 (abs_nonneg a) (by norm_num)).1 this

theorem box_normals {norm : V3 K → K} (hn : IsNorm3 norm) {l u : V3 K} (hx : l.x ≤ u.x) (hy : l.y ≤ u.y) (hz : l.z ≤ u.z) :
    UnitNormals norm (boxTris l u) := by
  have px : 0 ≤ (u.y - l.y) * (u.z - l.z) := mul_nonneg (by linarith) (by linarith)
  have py : 0 ≤ (u.x - l.x) * (u.z - l.z) := mul_nonneg (by linarith) (by linarith)
  have pz : 0 ≤ (u.x - l.x) * (u.y - l.y) := mul_nonneg (by linarith) (by linarith)
  intro t ht
  have key : ∀ v : V3 K, ∀ n : V3 K, (∃ s : K, v = V3.scale s n ∧ norm v = s) → norm v * n.x = v.x ∧ norm v * n.y = v.y ∧ norm v * n.z = v.z := by
    rintro v n ⟨s, rfl, hs⟩
    rw [hs]; exact ⟨rfl, rfl, rfl⟩
  refine key _ _ ?_
  simp only [boxTris, List.mem_cons, List.not_mem_nil, or_false] at ht
  have fx : ∀ v : V3 K, v = ⟨-((u.y - l.y) * (u.z - l.z)), 0, 0⟩ → ∃ s : K, v = V3.scale s ⟨-1, 0, 0⟩ ∧ norm v = s := by
    rintro v rfl
    exact ⟨(u.y - l.y) * (u.z - l.z), by simp [V3.scale], by rw [norm_x hn, abs_neg, abs_of_nonneg px]⟩
  have fx' : ∀ v : V3 K, v = ⟨(u.y - l.y) * (u.z - l.z), 0, 0⟩ → ∃ s : K, v = V3.scale s ⟨1, 0, 0⟩ ∧ norm v = s := by
    rintro v rfl
    exact ⟨(u.y - l.y) * (u.z - l.z), by simp [V3.scale], by rw [norm_x hn, abs_of_nonneg px]⟩
  have fy : ∀ v : V3 K, v = ⟨0, -((u.x - l.x) * (u.z - l.z)), 0⟩ → ∃ s : K, v = V3.scale s ⟨0, -1, 0⟩ ∧ norm v = s := by
    rintro v rfl
    exact ⟨(u.x - l.x) * (u.z - l.z), by simp [V3.scale], by rw [norm_y hn, abs_neg, abs_of_nonneg py]⟩
  have fy' : ∀ v : V3 K, v = ⟨0, (u.x - l.x) * (u.z - l.z), 0⟩ → ∃ s : K, v = V3.scale s ⟨0, 1, 0⟩ ∧ norm v = s := by
    rintro v rfl
    exact ⟨(u.x - l.x) * (u.z - l.z), by simp [V3.scale], by rw [norm_y hn, abs_of_nonneg py]⟩
  have fz : ∀ v : V3 K, v = ⟨0, 0, -((u.x - l.x) * (u.y - l.y))⟩ → ∃ s : K, v = V3.scale s ⟨0, 0, -1⟩ ∧ norm v = s := by
    rintro v rfl
    exact ⟨(u.x - l.x) * (u.y - l.y), by simp [V3.scale], by rw [norm_z hn, abs_neg, abs_of_nonneg pz]⟩
  have fz' : ∀ v : V3 K, v = ⟨0, 0, (u.x - l.x) * (u.y - l.y)⟩ → ∃ s : K, v = V3.scale s ⟨0, 0, 1⟩ ∧ norm v = s := by
    rintro v rfl
    exact ⟨(u.x - l.x) * (u.y - l.y), by simp [V3.scale], by rw [norm_z hn, abs_of_nonneg pz]⟩
  rcases ht with rfl | rfl | rfl | rfl | rfl | rfl | rfl | rfl | rfl | rfl | rfl | rfl <;>
    simp only [] <;>
    first
    | (apply fx; simp only [triangleArea2, V3.mk.injEq]; refine ⟨?_, ?_, ?_⟩ <;> ring)
    | (apply fx'; simp only [triangleArea2, V3.mk.injEq]; refine ⟨?_, ?_, ?_⟩ <;> ring)
    | (apply fy; simp only [triangleArea2, V3.mk.injEq]; refine ⟨?_, ?_, ?_⟩ <;> ring)
    | (apply fy'; simp only [triangleArea2, V3.mk.injEq]; refine ⟨?_, ?_, ?_⟩ <;> ring)
    | (apply fz; simp only [triangleArea2, V3.mk.injEq]; refine ⟨?_, ?_, ?_⟩ <;> ring)
    | (apply fz'; simp only [triangleArea2, V3.mk.injEq]; refine ⟨?_, ?_, ?_⟩ <;> ring)

/-- Closedness of a mesh from its indices. -/
theorem closed_of_indices {m : Mesh K} {ts : List (Tri K)} (h : Has m ts)
    (hp : (m.triangles.flatMap fun t => [(t.x, t.y), (t.y, t.z), (t.z, t.x)]).Perm
      ((m.triangles.flatMap fun t => [(t.x, t.y), (t.y, t.z), (t.z, t.x)]).map Prod.swap)) : ClosedSurface ts := by
  have d : V3 K := ⟨0, 0, 0⟩
  have key : ts.flatMap edgesOf = (m.triangles.flatMap fun t => [(t.x, t.y), (t.y, t.z), (t.z, t.x)]).map
      (Prod.map (fun i => m.vertices.getD i d) (fun i => m.vertices.getD i d)) := by
    have hts : ts = m.triangles.zipWith (fun t n => (⟨m.vertices.getD t.x d, m.vertices.getD t.y d, m.vertices.getD t.z d, n⟩ : Tri K)) m.normals := by
      have hl : m.triangles.length = m.normals.length := (check_iff.1 h.1).1
      refine List.ext_getElem? fun i => ?_
      by_cases hi : i < m.triangles.length
      · rw [← corners_get h.2 i hi]
        obtain ⟨s, hs⟩ := triangle_some h.1 hi
        obtain ⟨t, ht, hn, h1, h2, h3⟩ := triangle_parts hs
        rw [hs, List.getElem?_zipWith, ht, hn]
        simp only [List.getD_eq_getElem?_getD, h1, h2, h3, Option.getD_some]
      · rw [List.getElem?_eq_none (by rw [(visit_spec h.2).1]; omega), List.getElem?_eq_none (by rw [List.length_zipWith]; omega)]
    rw [hts]
    have hl : m.triangles.length = m.normals.length := (check_iff.1 h.1).1
    generalize m.triangles = a at hl
    generalize m.normals = b at hl
    induction a generalizing b with
    | nil => simp
    | cons t a ih =>
      cases b with
      | nil => simp at hl
      | cons n b =>
        rw [List.zipWith_cons_cons, List.flatMap_cons, List.flatMap_cons, List.map_append, ih b (by simpa using hl)]
        simp [edgesOf]
  unfold ClosedSurface
  rw [key]
  have := hp.map (Prod.map (fun i => m.vertices.getD i d) (fun i => m.vertices.getD i d))
  refine this.trans ?_
  rw [List.map_map, List.map_map]
  exact List.Perm.of_eq (List.map_congr_left fun e _ => rfl)

/-- The first coordinate of a point on a segment. -/
theorem param {a b x : K} (h1 : a ≤ x) (h2 : x ≤ b) : ∃ s, 0 ≤ s ∧ s ≤ 1 ∧ x = a + s * (b - a) := by
  rcases eq_or_lt_of_le (h1.trans h2) with h | h
  · exact ⟨0, le_refl _, zero_le_one, by linarith⟩
  · have hp : 0 < b - a := by linarith
    refine ⟨(x - a) / (b - a), div_nonneg (by linarith) hp.le, (div_le_one hp).2 (by linarith), ?_⟩
    field_simp
    ring

theorem coord_of_tri {a b c q : V3 K} (h : InTriangle a b c q) {l u : V3 K} (hx : l.x ≤ u.x) (hy : l.y ≤ u.y) (hz : l.z ≤ u.z)
    (ha : ∀ p, p = a ∨ p = b ∨ p = c → (l.x ≤ p.x ∧ p.x ≤ u.x) ∧ (l.y ≤ p.y ∧ p.y ≤ u.y) ∧ l.z ≤ p.z ∧ p.z ≤ u.z) :
    (l.x ≤ q.x ∧ q.x ≤ u.x) ∧ (l.y ≤ q.y ∧ q.y ≤ u.y) ∧ l.z ≤ q.z ∧ q.z ≤ u.z := by
  obtain ⟨s, v, w, hs, hv, hw, hsum, ex, ey, ez⟩ := h
  obtain ⟨⟨a1, a2⟩, ⟨a3, a4⟩, a5, a6⟩ := ha a (Or.inl rfl)
  obtain ⟨⟨b1, b2⟩, ⟨b3, b4⟩, b5, b6⟩ := ha b (Or.inr (Or.inl rfl))
  obtain ⟨⟨c1, c2⟩, ⟨c3, c4⟩, c5, c6⟩ := ha c (Or.inr (Or.inr rfl))
  have low : ∀ {m x y z : K}, m ≤ x → m ≤ y → m ≤ z → m ≤ s * x + v * y + w * z := by
    intro m x y z h1 h2 h3
    have := mul_le_mul_of_nonneg_left h1 hs
    have := mul_le_mul_of_nonneg_left h2 hv
    have := mul_le_mul_of_nonneg_left h3 hw
    have : s * m + v * m + w * m = m := by rw [← add_mul, ← add_mul, hsum, one_mul]
    linarith
  have upp : ∀ {m x y z : K}, x ≤ m → y ≤ m → z ≤ m → s * x + v * y + w * z ≤ m := by
    intro m x y z h1 h2 h3
    have := mul_le_mul_of_nonneg_left h1 hs
    have := mul_le_mul_of_nonneg_left h2 hv
    have := mul_le_mul_of_nonneg_left h3 hw
    have : s * m + v * m + w * m = m := by rw [← add_mul, ← add_mul, hsum, one_mul]
    linarith
  rw [ex, ey, ez]
  exact ⟨⟨low a1 b1 c1, upp a2 b2 c2⟩, ⟨low a3 b3 c3, upp a4 b4 c4⟩, low a5 b5 c5, upp a6 b6 c6⟩

theorem const_of_tri {s v w m : K} (hsum : s + v + w = 1) : s * m + v * m + w * m = m := by rw [← add_mul, ← add_mul, hsum, one_mul]

theorem box_surface {l u : V3 K} (hx : l.x ≤ u.x) (hy : l.y ≤ u.y) (hz : l.z ≤ u.z) (q : V3 K) :
    OnSurface (boxTris l u) q ↔ ((l.x ≤ q.x ∧ q.x ≤ u.x) ∧ (l.y ≤ q.y ∧ q.y ≤ u.y) ∧ l.z ≤ q.z ∧ q.z ≤ u.z) ∧
      (q.x = l.x ∨ q.x = u.x ∨ q.y = l.y ∨ q.y = u.y ∨ q.z = l.z ∨ q.z = u.z) := by
  constructor
  · rintro ⟨t, ht, h⟩
    have hq : (q.x = l.x ∨ q.x = u.x ∨ q.y = l.y ∨ q.y = u.y ∨ q.z = l.z ∨ q.z = u.z) := by
      obtain ⟨s, v, w, hs, hv, hw, hsum, ex, ey, ez⟩ := h
      simp only [boxTris, List.mem_cons, List.not_mem_nil, or_false] at ht
      rcases ht with rfl | rfl | rfl | rfl | rfl | rfl | rfl | rfl | rfl | rfl | rfl | rfl <;>
        simp only [const_of_tri hsum] at ex ey ez <;> tauto
    refine ⟨coord_of_tri h hx hy hz ?_, hq⟩
    intro p hp
    simp only [boxTris, List.mem_cons, List.not_mem_nil, or_false] at ht
    rcases ht with rfl | rfl | rfl | rfl | rfl | rfl | rfl | rfl | rfl | rfl | rfl | rfl <;>
      rcases hp with rfl | rfl | rfl <;> simp only [le_refl, hx, hy, hz, and_self]
  · rintro ⟨⟨⟨x1, x2⟩, ⟨y1, y2⟩, z1, z2⟩, hq⟩
    obtain ⟨a, a0, a1, ea⟩ := param x1 x2
    obtain ⟨b, b0, b1, eb⟩ := param y1 y2
    obtain ⟨c, c0, c1, ec⟩ := param z1 z2
    have pick : ∀ t : Tri K, t ∈ boxTris l u → InTriangle t.p1 t.p2 t.p3 q → OnSurface (boxTris l u) q := fun t ht h => ⟨t, ht, h⟩
    rcases hq with h | h | h | h | h | h
    · rcases le_total c b with hcb | hcb
      · refine pick ⟨⟨l.x, l.y, l.z⟩, ⟨l.x, u.y, u.z⟩, ⟨l.x, u.y, l.z⟩, ⟨-1, 0, 0⟩⟩ (by simp [boxTris]) ⟨1 - b, c, b - c, by linarith, c0, by linarith, by ring, ?_, ?_, ?_⟩ <;>
          simp only [h, eb, ec] <;> ring
      · refine pick ⟨⟨l.x, l.y, l.z⟩, ⟨l.x, l.y, u.z⟩, ⟨l.x, u.y, u.z⟩, ⟨-1, 0, 0⟩⟩ (by simp [boxTris]) ⟨1 - c, c - b, b, by linarith, by linarith, b0, by ring, ?_, ?_, ?_⟩ <;>
          simp only [h, eb, ec] <;> ring
    · rcases le_total b c with hcb | hcb
      · refine pick ⟨⟨u.x, l.y, l.z⟩, ⟨u.x, u.y, u.z⟩, ⟨u.x, l.y, u.z⟩, ⟨1, 0, 0⟩⟩ (by simp [boxTris]) ⟨1 - c, b, c - b, by linarith, b0, by linarith, by ring, ?_, ?_, ?_⟩ <;>
          simp only [h, eb, ec] <;> ring
      · refine pick ⟨⟨u.x, l.y, l.z⟩, ⟨u.x, u.y, l.z⟩, ⟨u.x, u.y, u.z⟩, ⟨1, 0, 0⟩⟩ (by simp [boxTris]) ⟨1 - b, b - c, c, by linarith, by linarith, c0, by ring, ?_, ?_, ?_⟩ <;>
          simp only [h, eb, ec] <;> ring
    · rcases le_total (1 - c) a with hcb | hcb
      · refine pick ⟨⟨l.x, l.y, u.z⟩, ⟨u.x, l.y, l.z⟩, ⟨u.x, l.y, u.z⟩, ⟨0, -1, 0⟩⟩ (by simp [boxTris]) ⟨1 - a, 1 - c, a - (1 - c), by linarith, by linarith, by linarith, by ring, ?_, ?_, ?_⟩ <;>
          simp only [h, ea, ec] <;> ring
      · refine pick ⟨⟨l.x, l.y, u.z⟩, ⟨l.x, l.y, l.z⟩, ⟨u.x, l.y, l.z⟩, ⟨0, -1, 0⟩⟩ (by simp [boxTris]) ⟨c, 1 - c - a, a, by linarith, by linarith, by linarith, by ring, ?_, ?_, ?_⟩ <;>
          simp only [h, ea, ec] <;> ring
    · rcases le_total (1 - c) a with hcb | hcb
      · refine pick ⟨⟨l.x, u.y, u.z⟩, ⟨u.x, u.y, u.z⟩, ⟨u.x, u.y, l.z⟩, ⟨0, 1, 0⟩⟩ (by simp [boxTris]) ⟨1 - a, a - (1 - c), 1 - c, by linarith, by linarith, by linarith, by ring, ?_, ?_, ?_⟩ <;>
          simp only [h, ea, ec] <;> ring
      · refine pick ⟨⟨l.x, u.y, u.z⟩, ⟨u.x, u.y, l.z⟩, ⟨l.x, u.y, l.z⟩, ⟨0, 1, 0⟩⟩ (by simp [boxTris]) ⟨c, a, 1 - c - a, by linarith, by linarith, by linarith, by ring, ?_, ?_, ?_⟩ <;>
          simp only [h, ea, ec] <;> ring
    · rcases le_total b a with hcb | hcb
      · refine pick ⟨⟨u.x, l.y, l.z⟩, ⟨l.x, l.y, l.z⟩, ⟨u.x, u.y, l.z⟩, ⟨0, 0, -1⟩⟩ (by simp [boxTris]) ⟨a - b, 1 - a, b, by linarith, by linarith, by linarith, by ring, ?_, ?_, ?_⟩ <;>
          simp only [h, ea, eb] <;> ring
      · refine pick ⟨⟨l.x, l.y, l.z⟩, ⟨l.x, u.y, l.z⟩, ⟨u.x, u.y, l.z⟩, ⟨0, 0, -1⟩⟩ (by simp [boxTris]) ⟨1 - b, b - a, a, by linarith, by linarith, by linarith, by ring, ?_, ?_, ?_⟩ <;>
          simp only [h, ea, eb] <;> ring
    · rcases le_total b a with hcb | hcb
      · refine pick ⟨⟨l.x, l.y, u.z⟩, ⟨u.x, l.y, u.z⟩, ⟨u.x, u.y, u.z⟩, ⟨0, 0, 1⟩⟩ (by simp [boxTris]) ⟨1 - a, a - b, b, by linarith, by linarith, by linarith, by ring, ?_, ?_, ?_⟩ <;>
          simp only [h, ea, eb] <;> ring
      · refine pick ⟨⟨l.x, l.y, u.z⟩, ⟨u.x, u.y, u.z⟩, ⟨l.x, u.y, u.z⟩, ⟨0, 0, 1⟩⟩ (by simp [boxTris]) ⟨1 - b, a, b - a, by linarith, by linarith, by linarith, by ring, ?_, ?_, ?_⟩ <;>
          simp only [h, ea, eb] <;> ring

end QuESo.MeshUtil
