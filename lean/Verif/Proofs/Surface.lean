import Verif.Proofs.Refine
import Mathlib.Tactic.Ring
import Mathlib.Tactic.FieldSimp
import Mathlib.Tactic.LinearCombination

/-! # Proofs about surfaces and their measures -/
namespace QuESo.MeshUtil
open QuESo.Spec QuESo.IO QuESo.BRep
variable {K : Type} [Field K] [LinearOrder K] [IsStrictOrderedRing K]

/-! ## Sums over divided triangles -/

theorem divided_sum {f : Tri K → K} (hf : ∀ t, ((quarters t).map f).sum = f t) {t : Tri K} {l : List (Tri K)} (h : Divided t l) :
    (l.map f).sum = f t := by
  induction h with
  | whole t => simp
  | split t q1 q2 q3 q4 a b c d hq _ _ _ _ ia ib ic id =>
    have := hf t
    rw [hq] at this
    simp only [List.map_cons, List.map_nil, List.sum_cons, List.sum_nil, add_zero] at this
    simp only [List.map_append, List.sum_append, ia, ib, ic, id]
    rw [← this]; ring

theorem refinement_sum {f : Tri K → K} (hf : ∀ t, ((quarters t).map f).sum = f t) {ts ts' : List (Tri K)} (h : RefinementOf ts ts') :
    (ts'.map f).sum = (ts.map f).sum := by
  obtain ⟨p, hp, rfl⟩ := h
  induction hp with
  | nil => simp
  | cons h1 _ ih =>
    rw [List.flatten_cons, List.map_append, List.sum_append, ih, divided_sum hf h1, List.map_cons, List.sum_cons]

theorem quarters_area (t q : Tri K) (h : q ∈ quarters t) : triangleArea2 q.p1 q.p2 q.p3 =
    ⟨(triangleArea2 t.p1 t.p2 t.p3).x / 4, (triangleArea2 t.p1 t.p2 t.p3).y / 4, (triangleArea2 t.p1 t.p2 t.p3).z / 4⟩ := by
  simp only [quarters, List.mem_cons, List.not_mem_nil, or_false] at h
  rcases h with rfl | rfl | rfl | rfl <;> simp only [triangleArea2, middle, V3.mk.injEq] <;> refine ⟨?_, ?_, ?_⟩ <;> ring

theorem quarters_map {α : Type} {f : Tri K → α} {t : Tri K} {v : α} (h : ∀ q ∈ quarters t, f q = v) : (quarters t).map f = [v, v, v, v] := by
  have h1 := h _ (by unfold quarters; simp : (⟨t.p1, middle t.p1 t.p2, middle t.p3 t.p1, t.normal⟩ : Tri K) ∈ quarters t)
  have h2 := h _ (by unfold quarters; simp : (⟨middle t.p1 t.p2, t.p2, middle t.p2 t.p3, t.normal⟩ : Tri K) ∈ quarters t)
  have h3 := h _ (by unfold quarters; simp : (⟨middle t.p2 t.p3, t.p3, middle t.p3 t.p1, t.normal⟩ : Tri K) ∈ quarters t)
  have h4 := h _ (by unfold quarters; simp : (⟨middle t.p1 t.p2, middle t.p2 t.p3, middle t.p3 t.p1, t.normal⟩ : Tri K) ∈ quarters t)
  simp only [quarters, List.map_cons, List.map_nil, h1, h2, h3, h4]

theorem sum_quarters (a : K) : [a / 4, a / 4, a / 4, a / 4].sum = a := by simp only [List.sum_cons, List.sum_nil]; ring

theorem refinement_area {ts ts' : List (Tri K)} (h : RefinementOf ts ts') : surfaceArea2 ts' = surfaceArea2 ts := by
  unfold surfaceArea2 sumV
  simp only [List.map_map]
  have hx := refinement_sum (f := fun t => (triangleArea2 t.p1 t.p2 t.p3).x) (fun t => by
    rw [quarters_map (fun q hq => congrArg V3.x (quarters_area t q hq)), sum_quarters]) h
  have hy := refinement_sum (f := fun t => (triangleArea2 t.p1 t.p2 t.p3).y) (fun t => by
    rw [quarters_map (fun q hq => congrArg V3.y (quarters_area t q hq)), sum_quarters]) h
  have hz := refinement_sum (f := fun t => (triangleArea2 t.p1 t.p2 t.p3).z) (fun t => by
    rw [quarters_map (fun q hq => congrArg V3.z (quarters_area t q hq)), sum_quarters]) h
  simp only [V3.mk.injEq]
  exact ⟨hx, hy, hz⟩

theorem refinement_volume {ts ts' : List (Tri K)} (h : RefinementOf ts ts') : volume6 ts' = volume6 ts := by
  unfold volume6
  refine refinement_sum (fun t => ?_) h
  simp only [quarters, middle, List.map_cons, List.map_nil, List.sum_cons, List.sum_nil]
  ring

theorem norm_scale {norm : V3 K → K} (hn : IsNorm3 norm) {c : K} (hc : 0 ≤ c) (v : V3 K) :
    norm ⟨v.x * c, v.y * c, v.z * c⟩ = norm v * c := by
  obtain ⟨h1, h2⟩ := hn ⟨v.x * c, v.y * c, v.z * c⟩
  obtain ⟨g1, g2⟩ := hn v
  have : norm ⟨v.x * c, v.y * c, v.z * c⟩ ^ 2 = (norm v * c) ^ 2 := by
    rw [h2, mul_pow (norm v) c, g2]; ring
  exact (pow_left_inj₀ h1 (mul_nonneg g1 hc) (by norm_num)).1 this

theorem refinement_totalArea {norm : V3 K → K} (hn : IsNorm3 norm) {ts ts' : List (Tri K)} (h : RefinementOf ts ts') :
    totalArea norm ts' = totalArea norm ts := by
  unfold totalArea
  refine refinement_sum (fun t => ?_) h
  rw [quarters_map (v := norm (triangleArea2 t.p1 t.p2 t.p3) / 2 / 4)]
  · exact sum_quarters _
  · intro q hq
    rw [quarters_area t q hq]
    have := norm_scale hn (c := 1 / 4) (by norm_num) (triangleArea2 t.p1 t.p2 t.p3)
    simp only [mul_one_div] at this
    rw [this]; ring

/-! ## The set of points -/

theorem inTriangle_trans {p1 p2 p3 q1 q2 q3 q : V3 K} (h1 : InTriangle p1 p2 p3 q1) (h2 : InTriangle p1 p2 p3 q2)
    (h3 : InTriangle p1 p2 p3 q3) (h : InTriangle q1 q2 q3 q) : InTriangle p1 p2 p3 q := by
  obtain ⟨u, v, w, hu, hv, hw, hs, hx, hy, hz⟩ := h
  obtain ⟨u1, v1, w1, hu1, hv1, hw1, hs1, hx1, hy1, hz1⟩ := h1
  obtain ⟨u2, v2, w2, hu2, hv2, hw2, hs2, hx2, hy2, hz2⟩ := h2
  obtain ⟨u3, v3, w3, hu3, hv3, hw3, hs3, hx3, hy3, hz3⟩ := h3
  refine ⟨u * u1 + v * u2 + w * u3, u * v1 + v * v2 + w * v3, u * w1 + v * w2 + w * w3, by positivity, by positivity, by positivity, ?_, ?_, ?_, ?_⟩
  · linear_combination u * hs1 + v * hs2 + w * hs3 + hs
  · rw [hx, hx1, hx2, hx3]; ring
  · rw [hy, hy1, hy2, hy3]; ring
  · rw [hz, hz1, hz2, hz3]; ring

theorem corner1 (a b c : V3 K) : InTriangle a b c a := ⟨1, 0, 0, by simp⟩
theorem corner2 (a b c : V3 K) : InTriangle a b c b := ⟨0, 1, 0, by simp⟩
theorem corner3 (a b c : V3 K) : InTriangle a b c c := ⟨0, 0, 1, by simp⟩

theorem inTriangle_middle {a b c p q : V3 K} (hp : InTriangle a b c p) (hq : InTriangle a b c q) : InTriangle a b c (middle p q) := by
  refine inTriangle_trans hp hq hq ⟨1 / 2, 1 / 2, 0, by norm_num, by norm_num, le_refl _, by norm_num, ?_, ?_, ?_⟩ <;> simp only [middle] <;> ring

theorem onSurface_quarters (t : Tri K) (q : V3 K) : OnSurface (quarters t) q ↔ InTriangle t.p1 t.p2 t.p3 q := by
  constructor
  · rintro ⟨s, hs, h⟩
    simp only [quarters, List.mem_cons, List.not_mem_nil, or_false] at hs
    have c1 := corner1 t.p1 t.p2 t.p3
    have c2 := corner2 t.p1 t.p2 t.p3
    have c3 := corner3 t.p1 t.p2 t.p3
    rcases hs with rfl | rfl | rfl | rfl
    · exact inTriangle_trans c1 (inTriangle_middle c1 c2) (inTriangle_middle c3 c1) h
    · exact inTriangle_trans (inTriangle_middle c1 c2) c2 (inTriangle_middle c2 c3) h
    · exact inTriangle_trans (inTriangle_middle c2 c3) c3 (inTriangle_middle c3 c1) h
    · exact inTriangle_trans (inTriangle_middle c1 c2) (inTriangle_middle c2 c3) (inTriangle_middle c3 c1) h
  · rintro ⟨u, v, w, hu, hv, hw, hs, hx, hy, hz⟩
    by_cases h1 : 1 / 2 ≤ u
    · refine ⟨_, by unfold quarters; exact List.mem_cons_self, 2 * u - 1, 2 * v, 2 * w, by linarith, by linarith, by linarith, by linarith, ?_, ?_, ?_⟩
      · rw [hx]; simp only [middle]; linear_combination t.p1.x * (-1) * hs
      · rw [hy]; simp only [middle]; linear_combination t.p1.y * (-1) * hs
      · rw [hz]; simp only [middle]; linear_combination t.p1.z * (-1) * hs
    · by_cases h2 : 1 / 2 ≤ v
      · refine ⟨⟨middle t.p1 t.p2, t.p2, middle t.p2 t.p3, t.normal⟩, by unfold quarters; simp, 2 * u, 2 * v - 1, 2 * w, by linarith, by linarith, by linarith, by linarith, ?_, ?_, ?_⟩
        · rw [hx]; simp only [middle]; linear_combination t.p2.x * (-1) * hs
        · rw [hy]; simp only [middle]; linear_combination t.p2.y * (-1) * hs
        · rw [hz]; simp only [middle]; linear_combination t.p2.z * (-1) * hs
      · by_cases h3 : 1 / 2 ≤ w
        · refine ⟨⟨middle t.p2 t.p3, t.p3, middle t.p3 t.p1, t.normal⟩, by unfold quarters; simp, 2 * v, 2 * w - 1, 2 * u, by linarith, by linarith, by linarith, by linarith, ?_, ?_, ?_⟩
          · rw [hx]; simp only [middle]; linear_combination t.p3.x * (-1) * hs
          · rw [hy]; simp only [middle]; linear_combination t.p3.y * (-1) * hs
          · rw [hz]; simp only [middle]; linear_combination t.p3.z * (-1) * hs
        · push Not at h1 h2 h3
          refine ⟨⟨middle t.p1 t.p2, middle t.p2 t.p3, middle t.p3 t.p1, t.normal⟩, by unfold quarters; simp, 1 - 2 * w, 1 - 2 * u, 1 - 2 * v, by linarith, by linarith, by linarith, by linarith, ?_, ?_, ?_⟩
          · rw [hx]; simp only [middle]; linear_combination (t.p1.x + t.p2.x + t.p3.x) * hs
          · rw [hy]; simp only [middle]; linear_combination (t.p1.y + t.p2.y + t.p3.y) * hs
          · rw [hz]; simp only [middle]; linear_combination (t.p1.z + t.p2.z + t.p3.z) * hs

theorem onSurface_append (a b : List (Tri K)) (q : V3 K) : OnSurface (a ++ b) q ↔ OnSurface a q ∨ OnSurface b q := by
  unfold OnSurface
  simp only [List.mem_append, or_and_right, exists_or]

theorem divided_onSurface {t : Tri K} {l : List (Tri K)} (h : Divided t l) (q : V3 K) : OnSurface l q ↔ InTriangle t.p1 t.p2 t.p3 q := by
  induction h with
  | whole t => simp [OnSurface]
  | split t q1 q2 q3 q4 a b c d hq _ _ _ _ ia ib ic id =>
    rw [onSurface_append, onSurface_append, onSurface_append, ia, ib, ic, id, ← onSurface_quarters t q, hq]
    simp [OnSurface, or_assoc]

theorem refinement_onSurface {ts ts' : List (Tri K)} (h : RefinementOf ts ts') (q : V3 K) : OnSurface ts' q ↔ OnSurface ts q := by
  obtain ⟨p, hp, rfl⟩ := h
  induction hp with
  | nil => simp [OnSurface]
  | @cons t l ts p h1 _ ih =>
    rw [List.flatten_cons, onSurface_append, ih, divided_onSurface h1]
    simp [OnSurface]

theorem divided_mem {t : Tri K} {l : List (Tri K)} (h : Divided t l) : ∀ s ∈ l, s.normal = t.normal ∧ InTriangle t.p1 t.p2 t.p3 s.p1 ∧
    InTriangle t.p1 t.p2 t.p3 s.p2 ∧ InTriangle t.p1 t.p2 t.p3 s.p3 := by
  induction h with
  | whole t => intro s hs; simp only [List.mem_singleton] at hs; subst hs; exact ⟨rfl, corner1 _ _ _, corner2 _ _ _, corner3 _ _ _⟩
  | split t q1 q2 q3 q4 a b c d hq _ _ _ _ ia ib ic id =>
    have c1 := corner1 t.p1 t.p2 t.p3
    have c2 := corner2 t.p1 t.p2 t.p3
    have c3 := corner3 t.p1 t.p2 t.p3
    have m1 := inTriangle_middle c1 c2
    have m2 := inTriangle_middle c2 c3
    have m3 := inTriangle_middle c3 c1
    simp only [quarters, List.cons.injEq, and_true] at hq
    obtain ⟨rfl, rfl, rfl, rfl⟩ := hq
    intro s hs
    simp only [List.mem_append] at hs
    rcases hs with ((hs | hs) | hs) | hs
    · obtain ⟨h0, h1, h2, h3⟩ := ia s hs
      exact ⟨h0, inTriangle_trans c1 m1 m3 h1, inTriangle_trans c1 m1 m3 h2, inTriangle_trans c1 m1 m3 h3⟩
    · obtain ⟨h0, h1, h2, h3⟩ := ib s hs
      exact ⟨h0, inTriangle_trans m1 c2 m2 h1, inTriangle_trans m1 c2 m2 h2, inTriangle_trans m1 c2 m2 h3⟩
    · obtain ⟨h0, h1, h2, h3⟩ := ic s hs
      exact ⟨h0, inTriangle_trans m2 c3 m3 h1, inTriangle_trans m2 c3 m3 h2, inTriangle_trans m2 c3 m3 h3⟩
    · obtain ⟨h0, h1, h2, h3⟩ := id s hs
      exact ⟨h0, inTriangle_trans m1 m2 m3 h1, inTriangle_trans m1 m2 m3 h2, inTriangle_trans m1 m2 m3 h3⟩

theorem refinement_mem {ts ts' : List (Tri K)} (h : RefinementOf ts ts') : ∀ s ∈ ts', ∃ t ∈ ts, s.normal = t.normal ∧ InTriangle t.p1 t.p2 t.p3 s.p1 ∧
    InTriangle t.p1 t.p2 t.p3 s.p2 ∧ InTriangle t.p1 t.p2 t.p3 s.p3 := by
  obtain ⟨p, hp, rfl⟩ := h
  induction hp with
  | nil => simp
  | @cons t l ts p h1 _ ih =>
    intro s hs
    rw [List.flatten_cons, List.mem_append] at hs
    rcases hs with hs | hs
    · exact ⟨t, by simp, divided_mem h1 s hs⟩
    · obtain ⟨t', ht', r⟩ := ih s hs
      exact ⟨t', by simp [ht'], r⟩

/-! ## Joining -/

theorem foldl_addVertex : ∀ (l : List (V3 K)) (m : Mesh K), l.foldl Mesh.addVertex m = ⟨m.vertices ++ l, m.triangles, m.normals⟩
  | [], m => by simp
  | v :: l, m => by rw [List.foldl_cons, foldl_addVertex l]; simp [Mesh.addVertex]

theorem has_addVertices {m : Mesh K} {ts : List (Tri K)} (h : Has m ts) : ∀ (l : List (V3 K)), Has (l.foldl Mesh.addVertex m) ts := by
  intro l
  induction l generalizing m with
  | nil => exact h
  | cons v l ih => exact ih (has_addVertex h v)

theorem appendLoop_spec {src : Mesh K} {off : Nat} {pre : List (V3 K)} (hoff : off = pre.length) : ∀ (ids : List Nat) (us : List (Tri K)) (m : Mesh K) (ts : List (Tri K)),
    ids.mapM src.triangle = some us → m.vertices = pre ++ src.vertices → Has m ts →
    ∃ m', appendLoop src off ids m = some m' ∧ m'.vertices = pre ++ src.vertices ∧ Has m' (ts ++ us)
  | [], us, m, ts, hu, hv, hm => by
    simp only [List.mapM_nil, Option.pure_def, Option.some.injEq] at hu
    subst hu
    exact ⟨m, rfl, hv, by simpa using hm⟩
  | i :: rest, us, m, ts, hu, hv, hm => by
    rw [List.mapM_cons] at hu
    simp only [Option.bind_eq_bind] at hu
    obtain ⟨u, hu1, hu⟩ := Option.bind_eq_some_iff.1 hu
    obtain ⟨us', hu2, hu⟩ := Option.bind_eq_some_iff.1 hu
    simp only [Option.pure_def, Option.some.injEq] at hu
    subst hu
    obtain ⟨t, ht, hn, h1, h2, h3⟩ := triangle_parts hu1
    have shift : ∀ {i : Nat} {a : V3 K}, src.vertices[i]? = some a → m.vertices[i + off]? = some a := by
      intro i a h
      rw [hv, hoff, List.getElem?_append_right (by omega)]
      simpa using h
    have v1 := has_addTriangle (t := ⟨t.x + off, t.y + off, t.z + off⟩) (n := u.normal) hm (shift h1) (shift h2) (shift h3)
    obtain ⟨m', e', hv', hh⟩ := appendLoop_spec hoff rest us' _ _ hu2 (by exact hv) v1
    refine ⟨m', ?_, hv', ?_⟩
    · unfold appendLoop
      rw [ht, hn]
      exact e'
    · rw [List.append_assoc] at hh
      exact hh

/-! ## Measures -/

theorem foldl_add {α : Type} (f : α → K) : ∀ (l : List α) (a : K), l.foldl (fun a c => a + f c) a = a + (l.map f).sum
  | [], a => by simp
  | c :: l, a => by rw [List.foldl_cons, foldl_add f l, List.map_cons, List.sum_cons]; ring

theorem area_eq (norm : V3 K → K) (a b c : V3 K) : area norm ⟨a, b, c⟩ = norm (triangleArea2 a b c) / 2 := by
  unfold area
  have : V3.cross (b - a) (c - a) = triangleArea2 a b c := rfl
  simp only [this]; ring

theorem meshArea_eq (norm : V3 K → K) {m : Mesh K} {ts : List (Tri K)} (h : Has m ts) : meshArea norm m = some (totalArea norm ts) := by
  unfold meshArea
  rw [corners_mapM h.2]
  simp only [Option.some.injEq]
  rw [foldl_add, zero_add, List.map_map]
  unfold totalArea
  congr 1
  refine List.map_congr_left fun t _ => ?_
  exact area_eq norm _ _ _

/-- The term of the volume for a unit normal. -/
theorem volumeTerm_eq {norm : V3 K → K} {t : Tri K}
    (h : let a := triangleArea2 t.p1 t.p2 t.p3
      norm a * t.normal.x = a.x ∧ norm a * t.normal.y = a.y ∧ norm a * t.normal.z = a.z) :
    volumeTerm norm t = (t.p1.x * (t.p2.y * t.p3.z - t.p2.z * t.p3.y) + t.p1.y * (t.p2.z * t.p3.x - t.p2.x * t.p3.z) +
    t.p1.z * (t.p2.x * t.p3.y - t.p2.y * t.p3.x)) / 2 := by
  obtain ⟨hx, hy, hz⟩ := h
  unfold volumeTerm
  simp only [Tri.corners, area_eq, V3.dot, center]
  have : (triangleArea2 t.p1 t.p2 t.p3).x * (t.p1.x + t.p2.x + t.p3.x) + (triangleArea2 t.p1 t.p2 t.p3).y * (t.p1.y + t.p2.y + t.p3.y) +
      (triangleArea2 t.p1 t.p2 t.p3).z * (t.p1.z + t.p2.z + t.p3.z) =
      3 * (t.p1.x * (t.p2.y * t.p3.z - t.p2.z * t.p3.y) + t.p1.y * (t.p2.z * t.p3.x - t.p2.x * t.p3.z) +
    t.p1.z * (t.p2.x * t.p3.y - t.p2.y * t.p3.x)) := by
    simp only [triangleArea2]; ring
  rw [← hx, ← hy, ← hz] at this
  linear_combination (1 / 6 : K) * this

theorem sum_div (l : List K) (c : K) : (l.map (· / c)).sum = l.sum / c := by
  induction l with
  | nil => simp
  | cons a l ih => rw [List.map_cons, List.sum_cons, ih, List.sum_cons, add_div]

theorem sum_volumeTerm {norm : V3 K → K} {ts : List (Tri K)} (hu : UnitNormals norm ts) : (ts.map (volumeTerm norm)).sum = volume6 ts / 2 := by
  unfold volume6
  rw [← sum_div, List.map_map]
  congr 1
  exact List.map_congr_left fun t ht => volumeTerm_eq (hu t ht)

theorem meshVolume_eq {norm : V3 K → K} {m : Mesh K} {ts : List (Tri K)} (h : Has m ts) (hu : UnitNormals norm ts) :
    meshVolume norm m = some (|volume6 ts| / 6) := by
  unfold meshVolume
  rw [h.2]
  simp only [Option.some.injEq]
  rw [foldl_add, zero_add, sum_volumeTerm hu, div_div, abs_div]
  congr 1
  rw [abs_of_pos (by norm_num)]; norm_num

/-! ## Closed surfaces -/

omit [LinearOrder K] [IsStrictOrderedRing K] in
theorem sum_flatMap_edges (g : V3 K → V3 K → K) (ts : List (Tri K)) :
    edgeSum g ts = (ts.map fun t => g t.p1 t.p2 + g t.p2 t.p3 + g t.p3 t.p1).sum := by
  unfold edgeSum
  induction ts with
  | nil => simp
  | cons t ts ih =>
    rw [List.flatMap_cons, List.map_append, List.sum_append, ih, List.map_cons, List.sum_cons]
    simp only [edgesOf, List.map_cons, List.map_nil, List.sum_cons, List.sum_nil]
    ring

omit [LinearOrder K] [IsStrictOrderedRing K] in
theorem edgeSum_append (g : V3 K → V3 K → K) (a b : List (Tri K)) : edgeSum g (a ++ b) = edgeSum g a + edgeSum g b := by
  simp [edgeSum]

/-- A quantity of the edges that changes its sign with the direction vanishes on closed surfaces. -/
theorem antisym_sum {ts : List (Tri K)} (h : ClosedSurface ts) (g : V3 K → V3 K → K) (hg : ∀ a b, g b a = -g a b) :
    (ts.map fun t => g t.p1 t.p2 + g t.p2 t.p3 + g t.p3 t.p1).sum = 0 := by
  rw [← sum_flatMap_edges]
  unfold edgeSum
  have h1 : ((ts.flatMap edgesOf).map fun e => g e.1 e.2).sum = (((ts.flatMap edgesOf).map Prod.swap).map fun e => g e.1 e.2).sum :=
    (h.map _).sum_eq
  have h2 : ∀ l : List (V3 K × V3 K), ((l.map Prod.swap).map fun e => g e.1 e.2).sum = -(l.map fun e => g e.1 e.2).sum := by
    intro l
    induction l with
    | nil => simp
    | cons e l ih =>
      rw [List.map_cons, List.map_cons, List.sum_cons, ih, List.map_cons, List.sum_cons]
      simp only [Prod.fst_swap, Prod.snd_swap, hg e.1 e.2]
      ring
  rw [h2] at h1
  linarith

/-- A surface whose edges cancel is closed up to the division of edges. -/
theorem sealed_of_closed {ts : List (Tri K)} (h : ClosedSurface ts) : SealedSurface ts := by
  intro g hg
  rw [sum_flatMap_edges]
  exact antisym_sum h g hg.swap

/-- A quantity of the edges vanishes on closed surfaces. -/
theorem closed_sum {ts : List (Tri K)} (h : SealedSurface ts) (g : V3 K → V3 K → K) (hg : ∀ a b, g b a = -g a b)
    (hc : ∀ a c : V3 K, ∀ s, g a c = g a ⟨a.x + s * (c.x - a.x), a.y + s * (c.y - a.y), a.z + s * (c.z - a.z)⟩ +
      g ⟨a.x + s * (c.x - a.x), a.y + s * (c.y - a.y), a.z + s * (c.z - a.z)⟩ c) :
    (ts.map fun t => g t.p1 t.p2 + g t.p2 t.p3 + g t.p3 t.p1).sum = 0 := by
  rw [← sum_flatMap_edges]
  refine h g ⟨hg, ?_⟩
  rintro a b c ⟨s, -, rfl⟩
  exact hc a c s

/-- The third point may also be outside the segment. -/
theorem edge_line {g : V3 K → V3 K → K} (hg : EdgeQuantity g) (a c : V3 K) (s : K) :
    g a c = g a ⟨a.x + s * (c.x - a.x), a.y + s * (c.y - a.y), a.z + s * (c.z - a.z)⟩ +
      g ⟨a.x + s * (c.x - a.x), a.y + s * (c.y - a.y), a.z + s * (c.z - a.z)⟩ c := by
  rcases lt_or_ge s 0 with h0 | h0
  · have := hg.cut ⟨a.x + s * (c.x - a.x), a.y + s * (c.y - a.y), a.z + s * (c.z - a.z)⟩ a c ⟨-s / (1 - s),
      ⟨div_nonneg (by linarith) (by linarith), by rw [div_le_one (by linarith)]; linarith⟩, by
        have : (1 : K) - s ≠ 0 := by intro h; linarith
        apply V3.ext <;> field_simp <;> ring⟩
    rw [this, hg.swap a]
    ring
  · rcases le_or_gt s 1 with h1 | h1
    · exact hg.cut _ _ _ ⟨s, ⟨h0, h1⟩, rfl⟩
    · have := hg.cut a c ⟨a.x + s * (c.x - a.x), a.y + s * (c.y - a.y), a.z + s * (c.z - a.z)⟩ ⟨1 / s,
        ⟨by positivity, by rw [div_le_one (by linarith)]; linarith⟩, by
          have : s ≠ 0 := by intro h; linarith
          apply V3.ext <;> field_simp <;> ring⟩
      rw [this, hg.swap c ⟨a.x + s * (c.x - a.x), a.y + s * (c.y - a.y), a.z + s * (c.z - a.z)⟩]
      ring

/-- A surface is closed up to the division of edges if its edges can be cut so that every edge is used in one direction as often as in the
other one. -/
theorem sealed_of_cut {ts : List (Tri K)} {es : List (V3 K × V3 K)} (h : CutTo (ts.flatMap edgesOf) es) (hb : es.Perm (es.map Prod.swap)) :
    SealedSurface ts := by
  intro g hg
  have e : edgeSum g ts = (es.map fun e => g e.1 e.2).sum := by
    clear hb
    induction h with
    | same => rfl
    | cut l r a b c _ hs ih =>
      rw [ih]
      simp only [List.map_append, List.map_cons, List.sum_append, List.sum_cons, hg.cut a b c hs]
      ring
  rw [e]
  have h1 := (hb.map fun e => g e.1 e.2).sum_eq
  have h2 : ∀ l : List (V3 K × V3 K), ((l.map Prod.swap).map fun e => g e.1 e.2).sum = -(l.map fun e => g e.1 e.2).sum := by
    intro l
    induction l with
    | nil => simp
    | cons e l ih =>
      rw [List.map_cons, List.map_cons, List.sum_cons, ih, List.map_cons, List.sum_cons]
      simp only [Prod.fst_swap, Prod.snd_swap, hg.swap e.1 e.2]
      ring
  rw [h2] at h1
  linarith

/-- The sum over the edges of a divided triangle is the sum over the edges of the triangle. -/
theorem divided_edges {g : V3 K → V3 K → K} (hg : EdgeQuantity g) {t : Tri K} {ts : List (Tri K)} (h : Divided t ts) :
    edgeSum g ts = g t.p1 t.p2 + g t.p2 t.p3 + g t.p3 t.p1 := by
  unfold edgeSum
  have hm : ∀ a b : V3 K, g a b = g a (middle a b) + g (middle a b) b := fun a b => hg.cut a (middle a b) b
    ⟨1 / 2, by constructor <;> norm_num, by unfold middle; congr 1 <;> ring⟩
  induction h with
  | whole t => simp only [List.flatMap_cons, List.flatMap_nil, List.append_nil, edgesOf, List.map_cons, List.map_nil, List.sum_cons, List.sum_nil]; ring
  | split t q1 q2 q3 q4 a b c d hq _ _ _ _ i1 i2 i3 i4 =>
    simp only [List.flatMap_append, List.map_append, List.sum_append, i1, i2, i3, i4]
    simp only [quarters, List.cons.injEq, and_true] at hq
    obtain ⟨rfl, rfl, rfl, rfl⟩ := hq
    dsimp only
    rw [hm t.p1 t.p2, hm t.p2 t.p3, hm t.p3 t.p1, hg.swap (middle t.p1 t.p2) (middle t.p2 t.p3), hg.swap (middle t.p2 t.p3) (middle t.p3 t.p1),
      hg.swap (middle t.p3 t.p1) (middle t.p1 t.p2)]
    ring

/-- Refinement keeps what is measured along the edges. -/
theorem refinement_edges {g : V3 K → V3 K → K} (hg : EdgeQuantity g) {ts ts' : List (Tri K)} (h : RefinementOf ts ts') :
    edgeSum g ts' = edgeSum g ts := by
  obtain ⟨parts, hp, rfl⟩ := h
  rw [sum_flatMap_edges g ts]
  induction hp with
  | nil => simp [edgeSum]
  | cons h _ ih => rw [List.flatten_cons, edgeSum_append, divided_edges hg h, ih, List.map_cons, List.sum_cons]

theorem refinement_sealed {ts ts' : List (Tri K)} (h : RefinementOf ts ts') : SealedSurface ts' ↔ SealedSurface ts := by
  constructor <;> intro hs g hg
  · rw [← refinement_edges hg h]; exact hs g hg
  · rw [refinement_edges hg h]; exact hs g hg

theorem sum_sub_map {α : Type} (f g : α → K) (l : List α) : (l.map f).sum - (l.map g).sum = (l.map fun a => f a - g a).sum := by
  induction l with
  | nil => simp
  | cons a l ih => simp only [List.map_cons, List.sum_cons]; rw [← ih]; ring

theorem closed_area {ts : List (Tri K)} (h : SealedSurface ts) : surfaceArea2 ts = ⟨0, 0, 0⟩ := by
  unfold surfaceArea2 sumV
  simp only [List.map_map, V3.mk.injEq]
  refine ⟨?_, ?_, ?_⟩
  · rw [← closed_sum h (fun a b => a.y * b.z - a.z * b.y) (fun a b => by ring) (fun a c s => by ring)]
    congr 1; refine List.map_congr_left fun t _ => ?_
    simp only [Function.comp_apply, triangleArea2]; ring
  · rw [← closed_sum h (fun a b => a.z * b.x - a.x * b.z) (fun a b => by ring) (fun a c s => by ring)]
    congr 1; refine List.map_congr_left fun t _ => ?_
    simp only [Function.comp_apply, triangleArea2]; ring
  · rw [← closed_sum h (fun a b => a.x * b.y - a.y * b.x) (fun a b => by ring) (fun a c s => by ring)]
    congr 1; refine List.map_congr_left fun t _ => ?_
    simp only [Function.comp_apply, triangleArea2]; ring

theorem closed_dir_x {ts : List (Tri K)} (h : SealedSurface ts) :
    (ts.map fun t => (triangleArea2 t.p1 t.p2 t.p3).x * (t.p1.x + t.p2.x + t.p3.x)).sum = volume6 ts := by
  unfold volume6
  rw [← sub_eq_zero, sum_sub_map, ← closed_sum h (fun a b => (a.x + b.x) * (a.y * b.z - a.z * b.y)) (fun a b => by ring) (fun a c s => by ring)]
  congr 1; refine List.map_congr_left fun t _ => ?_
  simp only [triangleArea2]; ring

theorem closed_dir_y {ts : List (Tri K)} (h : SealedSurface ts) :
    (ts.map fun t => (triangleArea2 t.p1 t.p2 t.p3).y * (t.p1.y + t.p2.y + t.p3.y)).sum = volume6 ts := by
  unfold volume6
  rw [← sub_eq_zero, sum_sub_map, ← closed_sum h (fun a b => (a.y + b.y) * (a.z * b.x - a.x * b.z)) (fun a b => by ring) (fun a c s => by ring)]
  congr 1; refine List.map_congr_left fun t _ => ?_
  simp only [triangleArea2]; ring

theorem closed_dir_z {ts : List (Tri K)} (h : SealedSurface ts) :
    (ts.map fun t => (triangleArea2 t.p1 t.p2 t.p3).z * (t.p1.z + t.p2.z + t.p3.z)).sum = volume6 ts := by
  unfold volume6
  rw [← sub_eq_zero, sum_sub_map, ← closed_sum h (fun a b => (a.z + b.z) * (a.x * b.y - a.y * b.x)) (fun a b => by ring) (fun a c s => by ring)]
  congr 1; refine List.map_congr_left fun t _ => ?_
  simp only [triangleArea2]; ring

theorem closed_translate {ts : List (Tri K)} (h : SealedSurface ts) (d : V3 K) : volume6 (translate d ts) = volume6 ts := by
  unfold volume6 translate
  simp only [List.map_map]
  rw [← sub_eq_zero, sum_sub_map, ← closed_sum h (fun a b => d.x * (a.y * b.z - a.z * b.y) + d.y * (a.z * b.x - a.x * b.z) +
    d.z * (a.x * b.y - a.y * b.x)) (fun a b => by ring) (fun a c s => by ring)]
  congr 1; refine List.map_congr_left fun t _ => ?_
  simp only [Function.comp_apply]; ring

/-- The sum of the directional volumes, for unit normals. -/
theorem dirTerm_eq {norm : V3 K → K} {ts : List (Tri K)} (hu : UnitNormals norm ts) (hc : SealedSurface ts) :
    (ts.map fun t => t.normal.x * (center (Tri.corners t)).x * area norm (Tri.corners t)).sum = volume6 ts / 6 ∧
    (ts.map fun t => t.normal.y * (center (Tri.corners t)).y * area norm (Tri.corners t)).sum = volume6 ts / 6 ∧
    (ts.map fun t => t.normal.z * (center (Tri.corners t)).z * area norm (Tri.corners t)).sum = volume6 ts / 6 := by
  refine ⟨?_, ?_, ?_⟩
  · rw [← closed_dir_x hc, ← sum_div, List.map_map]
    congr 1; refine List.map_congr_left fun t ht => ?_
    obtain ⟨hx, hy, hz⟩ := hu t ht
    simp only [Tri.corners, area_eq, center, Function.comp_apply, ← hx]
    ring
  · rw [← closed_dir_y hc, ← sum_div, List.map_map]
    congr 1; refine List.map_congr_left fun t ht => ?_
    obtain ⟨hx, hy, hz⟩ := hu t ht
    simp only [Tri.corners, area_eq, center, Function.comp_apply, ← hy]
    ring
  · rw [← closed_dir_z hc, ← sum_div, List.map_map]
    congr 1; refine List.map_congr_left fun t ht => ?_
    obtain ⟨hx, hy, hz⟩ := hu t ht
    simp only [Tri.corners, area_eq, center, Function.comp_apply, ← hz]
    ring

theorem sumStep_foldl (norm : V3 K → K) : ∀ (ts : List (Tri K)) (s : Sums K), ts.foldl (sumStep norm) s =
    ⟨⟨s.volumes.x + (ts.map fun t => t.normal.x * (center (Tri.corners t)).x * area norm (Tri.corners t)).sum,
      s.volumes.y + (ts.map fun t => t.normal.y * (center (Tri.corners t)).y * area norm (Tri.corners t)).sum,
      s.volumes.z + (ts.map fun t => t.normal.z * (center (Tri.corners t)).z * area norm (Tri.corners t)).sum⟩,
     s.area + (ts.map fun t => area norm (Tri.corners t)).sum,
     ⟨s.areas.x + (ts.map fun t => area norm (Tri.corners t) * t.normal.x).sum,
      s.areas.y + (ts.map fun t => area norm (Tri.corners t) * t.normal.y).sum,
      s.areas.z + (ts.map fun t => area norm (Tri.corners t) * t.normal.z).sum⟩⟩
  | [], s => by simp
  | t :: ts, s => by
    rw [List.foldl_cons, sumStep_foldl norm ts]
    simp only [sumStep, List.map_cons, List.sum_cons]
    simp only [add_assoc]

theorem areas_eq {norm : V3 K → K} {ts : List (Tri K)} (hu : UnitNormals norm ts) :
    (⟨(ts.map fun t => area norm (Tri.corners t) * t.normal.x).sum, (ts.map fun t => area norm (Tri.corners t) * t.normal.y).sum,
      (ts.map fun t => area norm (Tri.corners t) * t.normal.z).sum⟩ : V3 K) =
    ⟨(surfaceArea2 ts).x / 2, (surfaceArea2 ts).y / 2, (surfaceArea2 ts).z / 2⟩ := by
  simp only [surfaceArea2, sumV, ← sum_div, List.map_map, V3.mk.injEq]
  refine ⟨?_, ?_, ?_⟩ <;> congr 1 <;> refine List.map_congr_left fun t ht => ?_ <;> obtain ⟨hx, hy, hz⟩ := hu t ht <;>
    simp only [Tri.corners, area_eq, Function.comp_apply]
  · rw [← hx]; ring
  · rw [← hy]; ring
  · rw [← hz]; ring

theorem norm_zero {norm : V3 K → K} (hn : IsNorm3 norm) : norm ⟨0, 0, 0⟩ = 0 := by
  have := (hn ⟨0, 0, 0⟩).2
  simpa using this

/-! ## Parallel sums -/

theorem mapM_eq_map {α β : Type} {f : α → Option β} {g : α → β} : ∀ {l : List α}, (∀ a ∈ l, f a = some (g a)) → l.mapM f = some (l.map g)
  | [], _ => rfl
  | a :: l, h => by rw [List.mapM_cons, h a (by simp), mapM_eq_map (fun b hb => h b (by simp [hb]))]; rfl

theorem foldl_add' (l : List K) (a : K) : l.foldl (· + ·) a = a + l.sum := by
  have := foldl_add (fun x : K => x) l a
  simpa using this

theorem parallelSum_eq {f : Nat → Option K} {g : Nat → K} {chunks : List (List Nat)} (h : ∀ c ∈ chunks, ∀ i ∈ c, f i = some (g i)) :
    parallelSum f chunks = some ((chunks.flatten).map g).sum := by
  unfold parallelSum
  rw [mapM_eq_map (g := fun c : List Nat => (c.map g).sum)]
  · simp only [Option.map_some, Option.some.injEq]
    rw [foldl_add', zero_add]
    induction chunks with
    | nil => simp
    | cons c cs ih => rw [List.map_cons, List.sum_cons, List.flatten_cons, List.map_append, List.sum_append, ih (fun d hd => h d (by simp [hd]))]
  · intro c hc
    rw [mapM_eq_map (h c hc)]
    simp only [Option.map_some, Option.some.injEq]
    rw [foldl_add', zero_add]

omit [Field K] [LinearOrder K] [IsStrictOrderedRing K] in
theorem range_getD {α : Type} (l : List α) (d : α) : (List.range l.length).map (fun i => l.getD i d) = l := by
  refine List.ext_getElem (by simp) fun i h1 h2 => ?_
  simp [h2]

theorem schedule_sum {α : Type} {n : Nat} (hn : n < 2 ^ 31) {chunks : List (List Nat)} (hs : Schedule n chunks) {l : List α} (hl : l.length = n)
    {f : Nat → Option α} (hf : ∀ i, i < n → f i = l[i]?) (g : α → K) :
    parallelSum (fun i => (f i).map g) chunks = some (l.map g).sum := by
  have hint : (toInt n).toNat = n := by
    unfold toInt
    rw [Nat.mod_eq_of_lt (by omega), if_pos hn]
    exact Int.toNat_natCast n
  unfold Schedule at hs
  rw [hint] at hs
  rw [parallelSum_eq (g := fun i => (l.map g).getD i 0)]
  · rw [(hs.map _).sum_eq]
    have := range_getD (l.map g) 0
    rw [List.length_map, hl] at this
    rw [this]
  · intro c hc i hi
    have hi' : i < n := by
      have : i ∈ List.range n := hs.mem_iff.1 (List.mem_flatten.2 ⟨c, hc, hi⟩)
      simpa using this
    rw [hf i hi', List.getElem?_eq_getElem (by omega), Option.map_some]
    simp [hl, hi']

theorem corners_get {m : Mesh K} {ts : List (Tri K)} (h : m.visit = some ts) : ∀ i, i < m.triangles.length → m.triangle i = ts[i]? :=
  (mapM_range_some _ _ _ h).2

/-! ## Bounding box -/

theorem boundStep_foldl : ∀ (cs : List (V3 (V3 K))) (b : V3 K × V3 K),
    (∀ c ∈ cs, ∀ p, (p = c.x ∨ p = c.y ∨ p = c.z) → (cs.foldl boundStep b).1.x ≤ p.x ∧ (cs.foldl boundStep b).1.y ≤ p.y ∧ (cs.foldl boundStep b).1.z ≤ p.z ∧
      p.x ≤ (cs.foldl boundStep b).2.x ∧ p.y ≤ (cs.foldl boundStep b).2.y ∧ p.z ≤ (cs.foldl boundStep b).2.z) ∧
    ((cs.foldl boundStep b).1.x ≤ b.1.x ∧ (cs.foldl boundStep b).1.y ≤ b.1.y ∧ (cs.foldl boundStep b).1.z ≤ b.1.z ∧
      b.2.x ≤ (cs.foldl boundStep b).2.x ∧ b.2.y ≤ (cs.foldl boundStep b).2.y ∧ b.2.z ≤ (cs.foldl boundStep b).2.z) ∧
    (∀ lo up : V3 K, (lo.x ≤ b.1.x ∧ lo.y ≤ b.1.y ∧ lo.z ≤ b.1.z ∧ b.2.x ≤ up.x ∧ b.2.y ≤ up.y ∧ b.2.z ≤ up.z) →
      (∀ c ∈ cs, ∀ p, (p = c.x ∨ p = c.y ∨ p = c.z) → lo.x ≤ p.x ∧ lo.y ≤ p.y ∧ lo.z ≤ p.z ∧ p.x ≤ up.x ∧ p.y ≤ up.y ∧ p.z ≤ up.z) →
      lo.x ≤ (cs.foldl boundStep b).1.x ∧ lo.y ≤ (cs.foldl boundStep b).1.y ∧ lo.z ≤ (cs.foldl boundStep b).1.z ∧
      (cs.foldl boundStep b).2.x ≤ up.x ∧ (cs.foldl boundStep b).2.y ≤ up.y ∧ (cs.foldl boundStep b).2.z ≤ up.z)
  | [], b => by simp
  | c :: cs, b => by
    obtain ⟨h1, h2, h3⟩ := boundStep_foldl cs (boundStep b c)
    rw [List.foldl_cons]
    generalize cs.foldl boundStep (boundStep b c) = r at h1 h2 h3
    simp only [boundStep, le_min_iff, max_le_iff] at h2 h3
    obtain ⟨⟨⟨⟨a1, a2⟩, a3⟩, a4⟩, ⟨⟨⟨b1, b2⟩, b3⟩, b4⟩, ⟨⟨⟨c1, c2⟩, c3⟩, c4⟩, ⟨⟨⟨d1, d2⟩, d3⟩, d4⟩, ⟨⟨⟨e1, e2⟩, e3⟩, e4⟩, ⟨⟨f1, f2⟩, f3⟩, f4⟩ := h2
    refine ⟨?_, ⟨a4, b4, c4, d4, e4, f4⟩, ?_⟩
    · intro d hd p hp
      rcases List.mem_cons.1 hd with rfl | hd
      · rcases hp with rfl | rfl | rfl
        · exact ⟨a1, b1, c1, d1, e1, f1⟩
        · exact ⟨a2, b2, c2, d2, e2, f2⟩
        · exact ⟨a3, b3, c3, d3, e3, f3⟩
      · exact h1 d hd p hp
    · intro lo up hb hc
      obtain ⟨x1, x2, x3, x4, x5, x6⟩ := hc c (by simp) c.x (Or.inl rfl)
      obtain ⟨y1, y2, y3, y4, y5, y6⟩ := hc c (by simp) c.y (Or.inr (Or.inl rfl))
      obtain ⟨z1, z2, z3, z4, z5, z6⟩ := hc c (by simp) c.z (Or.inr (Or.inr rfl))
      obtain ⟨w1, w2, w3, w4, w5, w6⟩ := hb
      exact h3 lo up ⟨⟨⟨⟨x1, y1⟩, z1⟩, w1⟩, ⟨⟨⟨x2, y2⟩, z2⟩, w2⟩, ⟨⟨⟨x3, y3⟩, z3⟩, w3⟩, ⟨⟨⟨x4, y4⟩, z4⟩, w4⟩, ⟨⟨⟨x5, y5⟩, z5⟩, w5⟩, ⟨⟨x6, y6⟩, z6⟩, w6⟩
        (fun d hd => hc d (by simp [hd]))

/-! ## Computed normals -/

theorem cross_eq (a b c : V3 K) : V3.cross (b - a) (c - b) = triangleArea2 a b c ∧ V3.cross (a - c) (b - a) = triangleArea2 a b c ∧
    V3.cross (c - b) (a - c) = triangleArea2 a b c := by
  refine ⟨?_, ?_, ?_⟩ <;> simp only [V3.cross, triangleArea2, V3.sub_x, V3.sub_y, V3.sub_z, V3.mk.injEq] <;> refine ⟨?_, ?_, ?_⟩ <;> ring

theorem normal_eq (norm : V3 K → K) (zt : K) (a b c : V3 K) : normal norm zt ⟨a, b, c⟩ =
    if norm (triangleArea2 a b c) > zt then V3.scale (1 / norm (triangleArea2 a b c)) (triangleArea2 a b c) else ⟨0, 0, 0⟩ := by
  unfold normal
  simp only [(cross_eq a b c).1, (cross_eq a b c).2.1, (cross_eq a b c).2.2, ite_self]

end QuESo.MeshUtil
