import Verif.Proofs.MeshMeasures
import Mathlib.Data.Real.Sqrt

/-!
# Properties of meshes: joining, refinement, boxes, measures (C35, C36, C37, C63, C64, C65)
-/
namespace QuESo.MeshUtil
open QuESo.Spec QuESo.IO QuESo.BRep
variable {K : Type} [Field K] [LinearOrder K] [IsStrictOrderedRing K]

/-- There is a norm: the hypothesis `IsNorm3` of the theorems below holds for the root of the sum of squares of real numbers. -/
example : IsNorm3 (K := ℝ) (fun v => √(v.x ^ 2 + v.y ^ 2 + v.z ^ 2)) :=
  fun v => ⟨Real.sqrt_nonneg _, Real.sq_sqrt (by positivity)⟩

/-! ## C35: joining -/

/-- C35: appending a valid mesh to a valid mesh keeps the triangles of the first mesh and their order, adds all triangles of the
second one with the same corners and normals, and gives a valid mesh. -/
theorem C35_append {m src : Mesh K} (hm : m.check = true) (hs : src.check = true) {ts us : List (Tri K)} (ht : m.visit = some ts)
    (hu : src.visit = some us) :
    ∃ m', append m src = some m' ∧ m'.check = true ∧ m'.visit = some (ts ++ us) ∧ m'.vertices = m.vertices ++ src.vertices := by
  obtain ⟨m', e, hv, hh⟩ := appendLoop_spec (pre := m.vertices) rfl (List.range src.triangles.length) us (src.vertices.foldl Mesh.addVertex m) ts hu
    (by rw [foldl_addVertex]) (has_addVertices ⟨hm, ht⟩ _)
  exact ⟨m', e, hh.1, hh.2, hv⟩

/-- One triangle, used in the examples. -/
def exTri : Mesh ℚ := ⟨[⟨0, 0, 0⟩, ⟨1, 0, 0⟩, ⟨0, 1, 0⟩], [⟨0, 1, 2⟩], [⟨0, 0, 1⟩]⟩

/-- C35 is not empty: two meshes that meet the hypotheses. -/
example : exTri.check = true ∧ (append exTri exTri).map Mesh.visit =
    some (some [⟨⟨0, 0, 0⟩, ⟨1, 0, 0⟩, ⟨0, 1, 0⟩, ⟨0, 0, 1⟩⟩, ⟨⟨0, 0, 0⟩, ⟨1, 0, 0⟩, ⟨0, 1, 0⟩, ⟨0, 0, 1⟩⟩]) ∧
    (append exTri exTri).map Mesh.triangles = some [⟨0, 1, 2⟩, ⟨3, 4, 5⟩] := by decide +kernel

/-! ## C36: refinement -/

/-- C36: refinement of a valid mesh ends, after at most as many passes as triangles are asked for.  The result is valid, keeps the
vertices, consists of the given triangles divided into quarters again and again, and has the number of triangles asked for,
unless no triangle has an area above the zero tolerance.  A mesh with enough triangles is not changed. -/
theorem C36_refine (norm : V3 K → K) {zt : K} (hz : 0 ≤ zt) (n : Nat) {m : Mesh K} (hm : m.check = true) {ts : List (Tri K)}
    (ht : m.visit = some ts) :
    ∃ m' ts', (∀ k, n < k → refineLoop norm zt n k m = .ok m') ∧ m'.check = true ∧ m'.visit = some ts' ∧ RefinementOf ts ts' ∧
      m.vertices <+: m'.vertices ∧ (n ≤ ts'.length ∨ ∀ t ∈ ts', norm (triangleArea2 t.p1 t.p2 t.p3) / 2 ≤ zt) ∧ (n ≤ ts.length → m' = m) := by
  obtain ⟨m', ts', h1, h2, h3, h4, h5, h6⟩ := refineLoop_spec norm hz n (n + 1) m ts ⟨hm, ht⟩ (by omega) (by omega)
  refine ⟨m', ts', fun k hk => h1 k (by omega), h2.1, h2.2, h3, h4, ?_, h6⟩
  rcases h5 with h5 | h5
  · exact Or.inl h5
  · exact Or.inr fun t ht => by rw [← area_eq]; exact h5 t ht

/-- C36: the refined mesh is the same surface: the same points, the same area vector, the same signed volume and, for the Euclidean
norm, the same area; every triangle lies in a triangle of the given mesh and has its normal. -/
theorem C36_keeps (norm : V3 K → K) {zt : K} (hz : 0 ≤ zt) (n : Nat) {m m' : Mesh K} (hm : m.check = true) {ts ts' : List (Tri K)}
    (ht : m.visit = some ts) {k : Nat} (hk : n < k) (hr : refineLoop norm zt n k m = .ok m') (ht' : m'.visit = some ts') :
    (∀ q, OnSurface ts' q ↔ OnSurface ts q) ∧ surfaceArea2 ts' = surfaceArea2 ts ∧ volume6 ts' = volume6 ts ∧
      (IsNorm3 norm → totalArea norm ts' = totalArea norm ts ∧ meshArea norm m' = meshArea norm m) ∧
      ∀ s ∈ ts', ∃ t ∈ ts, s.normal = t.normal ∧ InTriangle t.p1 t.p2 t.p3 s.p1 ∧ InTriangle t.p1 t.p2 t.p3 s.p2 ∧
        InTriangle t.p1 t.p2 t.p3 s.p3 := by
  obtain ⟨m1, ts1, h1, h2, h3, h4, h5, h6⟩ := C36_refine norm hz n hm ht
  have := (h1 k hk).symm.trans hr
  obtain rfl : m1 = m' := by injection this
  obtain rfl : ts1 = ts' := by rw [h3] at ht'; injection ht'
  refine ⟨refinement_onSurface h4, refinement_area h4, refinement_volume h4, fun hn => ⟨refinement_totalArea hn h4, ?_⟩, refinement_mem h4⟩
  rw [meshArea_eq norm ⟨h2, h3⟩, meshArea_eq norm ⟨hm, ht⟩, refinement_totalArea hn h4]

/-- C36: refinement does not open a surface and does not close one: the refined mesh is closed, up to the division of edges, exactly if the
given one is. -/
theorem C36_closed (norm : V3 K → K) {zt : K} (hz : 0 ≤ zt) (n : Nat) {m m' : Mesh K} (hm : m.check = true) {ts ts' : List (Tri K)}
    (ht : m.visit = some ts) {k : Nat} (hk : n < k) (hr : refineLoop norm zt n k m = .ok m') (ht' : m'.visit = some ts') :
    SealedSurface ts' ↔ SealedSurface ts := by
  obtain ⟨m1, ts1, h1, h2, h3, h4, h5, h6⟩ := C36_refine norm hz n hm ht
  have := (h1 k hk).symm.trans hr
  obtain rfl : m1 = m' := by injection this
  obtain rfl : ts1 = ts' := by rw [h3] at ht'; injection ht'
  exact refinement_sealed h4

/-- A surface with an area vector is not closed, whatever is done with its edges: a triangle. -/
example : ¬ SealedSurface [(⟨⟨0, 0, 0⟩, ⟨1, 0, 0⟩, ⟨0, 1, 0⟩, ⟨0, 0, 1⟩⟩ : Tri ℚ)] := by
  intro h
  have := congrArg V3.z (closed_area h)
  revert this
  decide +kernel

/-- A tetrahedron with the areas 1, 3/2, 3 and 7/2. -/
def exTetra : Mesh ℚ := ⟨[⟨0, 0, 0⟩, ⟨2, 0, 0⟩, ⟨0, 1, 0⟩, ⟨0, 0, 3⟩], [⟨0, 2, 1⟩, ⟨0, 1, 3⟩, ⟨0, 3, 2⟩, ⟨1, 2, 3⟩],
  [⟨0, 0, -1⟩, ⟨0, -1, 0⟩, ⟨-1, 0, 0⟩, ⟨3 / 7, 6 / 7, 2 / 7⟩]⟩

/-- The norm of the vectors that occur in the examples. -/
def exNorm (v : V3 ℚ) : ℚ := if v.x ^ 2 + v.y ^ 2 + v.z ^ 2 = 49 then 7 else |v.x| + |v.y| + |v.z|

instance (ts : List (Tri ℚ)) : Decidable (ClosedSurface ts) := inferInstanceAs (Decidable (List.Perm _ _))

/-- C36 is not empty: the tetrahedron is refined to seven triangles; only its largest face is divided. -/
example : exTetra.check = true ∧ (refineLoop exNorm (1 / 10 ^ 14) 5 6 exTetra).toOption.map (fun m => m.triangles) =
    some [⟨0, 2, 1⟩, ⟨0, 1, 3⟩, ⟨0, 3, 2⟩, ⟨1, 4, 6⟩, ⟨4, 2, 5⟩, ⟨5, 3, 6⟩, ⟨4, 5, 6⟩] := by decide +kernel

/-- C36, what refinement does not keep: a closed mesh (every edge is used once in each direction) can become a mesh with hanging
nodes, because a large triangle is divided and its neighbours are not.  It is then closed up to the division of edges only.  (For all triangles of the example the norm is exact.) -/
theorem C36_hanging_nodes : ∃ (m m' : Mesh ℚ) (ts ts' : List (Tri ℚ)) (norm : V3 ℚ → ℚ), m.check = true ∧ m.visit = some ts ∧
    (∀ t ∈ ts, let a := triangleArea2 t.p1 t.p2 t.p3; 0 ≤ norm a ∧ norm a ^ 2 = a.x ^ 2 + a.y ^ 2 + a.z ^ 2) ∧
    ClosedSurface ts ∧ (∀ k, 5 < k → refineLoop norm (1 / 10 ^ 14) 5 k m = .ok m') ∧ m'.visit = some ts' ∧ ¬ ClosedSurface ts' ∧
    SealedSurface ts' := by
  obtain ⟨ts, hts⟩ := check_visit (m := exTetra) (by decide +kernel)
  obtain ⟨m', ts', h1, -, h3, -⟩ := C36_refine exNorm (zt := 1 / 10 ^ 14) (by norm_num) 5 (by decide +kernel) hts
  have hcl : ClosedSurface ts := by
    have : exTetra.visit.all (fun ts => decide (ClosedSurface ts)) = true := by decide +kernel
    rw [hts] at this
    simpa using this
  refine ⟨exTetra, m', ts, ts', exNorm, by decide +kernel, hts, ?_, hcl, h1, h3, ?_,
    (C36_closed exNorm (zt := 1 / 10 ^ 14) (by norm_num) 5 (by decide +kernel) hts (by norm_num) (h1 6 (by norm_num)) h3).2 (sealed_of_closed hcl)⟩
  · have : exTetra.visit.all (fun ts => ts.all fun t => decide (0 ≤ exNorm (triangleArea2 t.p1 t.p2 t.p3) ∧ exNorm (triangleArea2 t.p1 t.p2 t.p3) ^ 2 =
      (triangleArea2 t.p1 t.p2 t.p3).x ^ 2 + (triangleArea2 t.p1 t.p2 t.p3).y ^ 2 + (triangleArea2 t.p1 t.p2 t.p3).z ^ 2)) = true := by decide +kernel
    rw [hts] at this
    simpa using this
  · have : (refineLoop exNorm (1 / 10 ^ 14) 5 6 exTetra).toOption.all (fun m => m.visit.all fun ts => decide (¬ ClosedSurface ts)) = true := by decide +kernel
    rw [h1 6 (by norm_num)] at this
    simp only [Except.toOption, Option.all_some, h3] at this
    simpa using this

/-! ## C37: boxes -/

/-- The directed edges of the index triples. -/
def indexEdges (m : Mesh K) : List (Nat × Nat) := m.triangles.flatMap fun t => [(t.x, t.y), (t.y, t.z), (t.z, t.x)]

/-- C37: the mesh of a box is valid and has eight vertices and twelve triangles; every directed edge is used once and its reverse too, so the
surface is closed; its points are the points of the box with a coordinate on a bound; the normals are outward unit normals; the signed
volume, and the computed volume, is the product of the edge lengths. -/
theorem C37_box {norm : V3 K → K} (hn : IsNorm3 norm) {l u : V3 K} (hx : l.x ≤ u.x) (hy : l.y ≤ u.y) (hz : l.z ≤ u.z) :
    ∃ ts, (makeMeshBox l u).check = true ∧ (makeMeshBox l u).visit = some ts ∧ (makeMeshBox l u).vertices.length = 8 ∧ ts.length = 12 ∧
      (indexEdges (makeMeshBox l u)).Nodup ∧ (∀ e ∈ indexEdges (makeMeshBox l u), e.swap ∈ indexEdges (makeMeshBox l u)) ∧
      ClosedSurface ts ∧ UnitNormals norm ts ∧
      (∀ q, OnSurface ts q ↔ ((l.x ≤ q.x ∧ q.x ≤ u.x) ∧ (l.y ≤ q.y ∧ q.y ≤ u.y) ∧ l.z ≤ q.z ∧ q.z ≤ u.z) ∧
        (q.x = l.x ∨ q.x = u.x ∨ q.y = l.y ∨ q.y = u.y ∨ q.z = l.z ∨ q.z = u.z)) ∧
      volume6 ts = 6 * ((u.x - l.x) * (u.y - l.y) * (u.z - l.z)) ∧
      meshVolume norm (makeMeshBox l u) = some ((u.x - l.x) * (u.y - l.y) * (u.z - l.z)) := by
  have hb := makeMeshBox_has l u
  have hidx : indexEdges (makeMeshBox l u) = ([⟨0, 6, 2⟩, ⟨0, 4, 6⟩, ⟨1, 7, 5⟩, ⟨1, 3, 7⟩, ⟨4, 1, 5⟩, ⟨4, 0, 1⟩, ⟨6, 7, 3⟩, ⟨6, 3, 2⟩, ⟨1, 0, 3⟩,
    ⟨0, 2, 3⟩, ⟨4, 5, 7⟩, ⟨4, 7, 6⟩] : List (V3 Nat)).flatMap fun t => [(t.x, t.y), (t.y, t.z), (t.z, t.x)] := rfl
  refine ⟨boxTris l u, hb.1, hb.2, rfl, rfl, ?_, ?_, closed_of_indices hb ?_, box_normals hn hx hy hz, box_surface hx hy hz, box_volume l u, ?_⟩
  · rw [hidx]; decide +kernel
  · rw [hidx]; decide +kernel
  · change (indexEdges (makeMeshBox l u)).Perm ((indexEdges (makeMeshBox l u)).map Prod.swap)
    rw [hidx]; decide +kernel
  · rw [meshVolume_eq hb (box_normals hn hx hy hz), box_volume, abs_of_nonneg]
    · congr 1; ring
    · have := mul_nonneg (mul_nonneg (sub_nonneg.2 hx) (sub_nonneg.2 hy)) (sub_nonneg.2 hz)
      linarith

/-- C37 is not empty: a box. -/
example : (makeMeshBox (⟨0, 0, 0⟩ : V3 ℚ) ⟨1, 2, 3⟩).check = true ∧ meshVolume exNorm (makeMeshBox ⟨0, 0, 0⟩ ⟨1, 2, 3⟩) = some 6 := by decide +kernel

/-! ## C63: measures of meshes -/

/-- C63: the computed area is the sum of the areas of the triangles. -/
theorem C63_area (norm : V3 K → K) {m : Mesh K} (hm : m.check = true) {ts : List (Tri K)} (ht : m.visit = some ts) :
    meshArea norm m = some (totalArea norm ts) := meshArea_eq norm ⟨hm, ht⟩

/-- C63: for a mesh with unit normals the computed volume is the absolute value of the signed volume of the tetrahedra over its triangles. -/
theorem C63_volume {norm : V3 K → K} {m : Mesh K} (hm : m.check = true) {ts : List (Tri K)} (ht : m.visit = some ts)
    (hu : UnitNormals norm ts) : meshVolume norm m = some (|volume6 ts| / 6) := meshVolume_eq ⟨hm, ht⟩ hu

/-- C63: for a closed mesh (up to the division of edges) the volume computed from one direction only is the same, whatever the direction. -/
theorem C63_direction {norm : V3 K → K} {m : Mesh K} {ts : List (Tri K)} (ht : m.visit = some ts)
    (hu : UnitNormals norm ts) (hc : SealedSurface ts) (dir : Nat) :
    meshVolumeDir norm m dir = if dir < 3 then .ok (|volume6 ts| / 6) else .error .error := by
  obtain ⟨h1, h2, h3⟩ := dirTerm_eq hu hc
  unfold meshVolumeDir
  by_cases hd : dir < 3
  · rw [if_neg (by omega), if_pos hd, ht]
    simp only [foldl_add, zero_add]
    have : dir = 0 ∨ dir = 1 ∨ dir = 2 := by omega
    have h6 : |volume6 ts / 6| = |volume6 ts| / 6 := by rw [abs_div, abs_of_pos (by norm_num : (0 : K) < 6)]
    rcases this with rfl | rfl | rfl
    · simp only [component, h1, h6]
    · simp only [component, h2, h6]
    · simp only [component, h3, h6]
  · rw [if_pos (by omega), if_neg hd]

/-- C63: the volume of a closed surface does not depend on its position. -/
theorem C63_translation {ts : List (Tri K)} (hc : SealedSurface ts) (d : V3 K) : volume6 (translate d ts) = volume6 ts :=
  closed_translate hc d

/-- C63: the parallel functions give the same area and volume as the sequential ones, for every distribution of the triangles over
the threads and every order of the sums, if the number of triangles fits into an `int`. -/
theorem C63_parallel (norm : V3 K → K) {m : Mesh K} (hm : m.check = true) (hn : m.triangles.length < 2 ^ 31) {chunks : List (List Nat)}
    (hs : Schedule m.triangles.length chunks) :
    meshAreaOMP norm m chunks = meshArea norm m ∧ meshVolumeOMP norm m chunks = meshVolume norm m := by
  obtain ⟨ts, ht⟩ := check_visit hm
  obtain ⟨hl, hg⟩ := mapM_range_some _ _ _ ht
  have hc := corners_mapM ht
  obtain ⟨hl', hg'⟩ := mapM_range_some _ _ _ hc
  constructor
  · unfold meshAreaOMP meshArea
    rw [hc, schedule_sum hn hs hl' hg' (area norm)]
    simp only [foldl_add, zero_add]
  · unfold meshVolumeOMP meshVolume
    rw [ht, schedule_sum hn hs hl hg (volumeTerm norm)]
    simp only [Option.map_some, foldl_add, zero_add]

/-- C63 is false of the code for 2^31 triangles: the parallel functions then give zero, whatever the mesh.  (The loop counter is an `int`.) -/
theorem C63_parallel_false_of_code : ∃ m : Mesh ℚ, m.check = true ∧ m.triangles.length = 2 ^ 31 ∧
    (∀ chunks, Schedule m.triangles.length chunks → meshAreaOMP exNorm m chunks = some 0) ∧ meshArea exNorm m = some (2 ^ 30) := by
  obtain ⟨N, hN⟩ : ∃ N : Nat, N = 2 ^ 31 := ⟨_, rfl⟩
  rw [← hN]
  have hchk : (⟨[⟨0, 0, 0⟩, ⟨1, 0, 0⟩, ⟨0, 1, 0⟩], List.replicate N ⟨0, 1, 2⟩, List.replicate N ⟨0, 0, 1⟩⟩ : Mesh ℚ).check = true := by
    rw [check_iff]
    refine ⟨by simp only [List.length_replicate], fun t ht => ?_⟩
    rw [List.eq_of_mem_replicate ht]
    exact ⟨show (0 : Nat) < 3 by decide, show (1 : Nat) < 3 by decide, show (2 : Nat) < 3 by decide⟩
  refine ⟨_, hchk, List.length_replicate, ?_, ?_⟩
  · intro chunks hs
    unfold Schedule at hs
    simp only [List.length_replicate] at hs
    have h0 : (toInt N).toNat = 0 := by rw [hN]; decide +kernel
    rw [h0, List.range_zero] at hs
    have hs := hs.eq_nil
    unfold meshAreaOMP
    rw [parallelSum_eq (g := fun _ => 0)]
    · rw [hs]; rfl
    · intro c hc i hi
      have : i ∈ chunks.flatten := List.mem_flatten.2 ⟨c, hc, hi⟩
      rw [hs] at this
      simp at this
  · obtain ⟨ts, ht⟩ := check_visit hchk
    rw [meshArea_eq exNorm ⟨hchk, ht⟩]
    obtain ⟨hl, hg⟩ := visit_spec ht
    have hts : ts.map (fun t => exNorm (triangleArea2 t.p1 t.p2 t.p3) / 2) = List.replicate N (1 / 2) := by
      refine List.eq_replicate_iff.2 ⟨by rw [List.length_map, hl]; exact List.length_replicate, ?_⟩
      intro b hb
      obtain ⟨t, htm, rfl⟩ := List.mem_map.1 hb
      obtain ⟨i, hi, rfl⟩ := List.getElem_of_mem htm
      have := hg i
      rw [List.getElem?_eq_getElem hi, Option.map_some] at this
      have hi' : i < N := by rw [hl] at hi; simpa using hi
      unfold Mesh.corners at this
      simp only [List.getElem?_replicate, if_pos hi'] at this
      simp only [List.getElem?_cons_zero, List.getElem?_cons_succ, Option.some.injEq, V3.mk.injEq] at this
      obtain ⟨h1, h2, h3⟩ := this
      rw [← h1, ← h2, ← h3]
      decide +kernel
    unfold totalArea
    rw [hts, List.sum_replicate, hN]
    norm_num

/-- C63: the quality estimate of a closed mesh with unit normals is zero if the mesh is oriented outwards (its signed volume is not negative);
if it is turned inside out and its volume is not below the tolerance, the estimate is two. -/
theorem C63_quality {norm : V3 K → K} (hn : IsNorm3 norm) {eps : K} (he : 0 < eps) {m : Mesh K} {ts : List (Tri K)}
    (ht : m.visit = some ts) (hu : UnitNormals norm ts) (hc : SealedSurface ts) :
    (0 ≤ volume6 ts → estimateQuality norm eps m = some 0) ∧ (volume6 ts ≤ -(6 * eps) → estimateQuality norm eps m = some 2) := by
  obtain ⟨h1, h2, h3⟩ := dirTerm_eq hu hc
  have hval : ∀ v : K, estimateQuality norm eps m = some v ↔
      max (max (max (abs (volume6 ts / 6 - abs (volume6 ts / 6)) / max (abs (volume6 ts / 6)) eps)
        (abs (volume6 ts / 6 - abs (volume6 ts / 6)) / max (abs (volume6 ts / 6)) eps))
        (abs (volume6 ts / 6 - abs (volume6 ts / 6)) / max (abs (volume6 ts / 6)) eps)) (0 / max (abs ((ts.map fun t => area norm (Tri.corners t)).sum)) eps) = v := by
    intro v
    unfold estimateQuality
    rw [ht]
    simp only [sumStep_foldl, zero_add, h1, h2, h3, areas_eq hu, closed_area hc, zero_div, norm_zero hn, Option.some.injEq]
    have : (volume6 ts / 6 + volume6 ts / 6 + volume6 ts / 6) / 3 = volume6 ts / 6 := by ring
    rw [this]
  constructor
  · intro hv
    rw [hval, abs_of_nonneg (by positivity : 0 ≤ volume6 ts / 6)]
    simp
  · intro hv
    have hneg : volume6 ts / 6 ≤ -eps := by linarith
    rw [hval, abs_of_nonpos (by linarith : volume6 ts / 6 ≤ 0), max_eq_left (by linarith : eps ≤ -(volume6 ts / 6))]
    have : |volume6 ts / 6 - -(volume6 ts / 6)| / -(volume6 ts / 6) = 2 := by
      rw [abs_of_nonpos (by linarith)]
      have : volume6 ts ≠ 0 := by intro h; rw [h] at hneg; simp at hneg; linarith
      field_simp
      ring
    rw [this]
    simp

/-- C63: the bounding box of a mesh with a triangle contains all corners and is contained in every box that does (all coordinates are
between the limits of the number type). -/
theorem C63_bounding_box {maxd : K} {m : Mesh K} {ts : List (Tri K)} (ht : m.visit = some ts) (hne : ts ≠ [])
    (hb : ∀ t ∈ ts, ∀ p, p = t.p1 ∨ p = t.p2 ∨ p = t.p3 → |p.x| ≤ maxd ∧ |p.y| ≤ maxd ∧ |p.z| ≤ maxd) :
    ∃ lo up, boundingBox maxd m = some (lo, up) ∧
      (∀ t ∈ ts, ∀ p, p = t.p1 ∨ p = t.p2 ∨ p = t.p3 → lo.x ≤ p.x ∧ lo.y ≤ p.y ∧ lo.z ≤ p.z ∧ p.x ≤ up.x ∧ p.y ≤ up.y ∧ p.z ≤ up.z) ∧
      ∀ lo' up' : V3 K, (∀ t ∈ ts, ∀ p, p = t.p1 ∨ p = t.p2 ∨ p = t.p3 →
          lo'.x ≤ p.x ∧ lo'.y ≤ p.y ∧ lo'.z ≤ p.z ∧ p.x ≤ up'.x ∧ p.y ≤ up'.y ∧ p.z ≤ up'.z) →
        lo'.x ≤ lo.x ∧ lo'.y ≤ lo.y ∧ lo'.z ≤ lo.z ∧ up.x ≤ up'.x ∧ up.y ≤ up'.y ∧ up.z ≤ up'.z := by
  obtain ⟨h1, -, h3⟩ := boundStep_foldl (ts.map fun t => (⟨t.p1, t.p2, t.p3⟩ : V3 (V3 K))) (⟨maxd, maxd, maxd⟩, ⟨-maxd, -maxd, -maxd⟩)
  refine ⟨((ts.map fun t => (⟨t.p1, t.p2, t.p3⟩ : V3 (V3 K))).foldl boundStep (⟨maxd, maxd, maxd⟩, ⟨-maxd, -maxd, -maxd⟩)).1,
    ((ts.map fun t => (⟨t.p1, t.p2, t.p3⟩ : V3 (V3 K))).foldl boundStep (⟨maxd, maxd, maxd⟩, ⟨-maxd, -maxd, -maxd⟩)).2, ?_, ?_, ?_⟩
  · unfold boundingBox
    rw [corners_mapM ht]
  · intro t htm p hp
    exact h1 _ (List.mem_map.2 ⟨t, htm, rfl⟩) p hp
  · intro lo' up' h
    obtain ⟨t, htm⟩ : ∃ t, t ∈ ts := List.exists_mem_of_ne_nil ts hne
    obtain ⟨b1, b2, b3⟩ := hb t htm t.p1 (Or.inl rfl)
    obtain ⟨c1, c2, c3, c4, c5, c6⟩ := h t htm t.p1 (Or.inl rfl)
    rw [abs_le] at b1 b2 b3
    refine h3 lo' up' ⟨by linarith [b1.2], by linarith [b2.2], by linarith [b3.2], by linarith [b1.1], by linarith [b2.1], by linarith [b3.1]⟩ ?_
    intro c hc p hp
    obtain ⟨t, ht', rfl⟩ := List.mem_map.1 hc
    exact h t ht' p hp

/-- C63: the aspect ratio of a triangle is at least one (the constant used for the root of three is not above it); so are the largest and the
average aspect ratio of a mesh with triangles. -/
theorem C63_aspect_ratio {norm : V3 K → K} (hn : IsNorm3 norm) {eps root3 mind : K} (he : 0 ≤ eps) (hr : 0 < root3) (hr2 : root3 ^ 2 ≤ 3)
    {m : Mesh K} {ts : List (Tri K)} (ht : m.visit = some ts) (hne : ts ≠ []) :
    (∀ a b c, 1 ≤ aspectRatio norm eps root3 ⟨a, b, c⟩) ∧ (∃ r, maxAspectRatio norm eps root3 mind m = some r ∧ 1 ≤ r ∧
      ∀ t ∈ ts, aspectRatio norm eps root3 ⟨t.p1, t.p2, t.p3⟩ ≤ r) ∧ ∃ r, averageAspectRatio norm eps root3 m = some r ∧ 1 ≤ r := by
  have h1 := aspect_ge hn he hr hr2
  refine ⟨h1, ?_, ?_⟩
  · obtain ⟨-, g2, -⟩ := foldl_max (aspectRatio norm eps root3) (ts.map fun t => (⟨t.p1, t.p2, t.p3⟩ : V3 (V3 K))) mind
    refine ⟨_, by unfold maxAspectRatio; rw [corners_mapM ht], ?_, ?_⟩
    · obtain ⟨t, htm⟩ : ∃ t, t ∈ ts := List.exists_mem_of_ne_nil ts hne
      exact le_trans (h1 _ _ _) (g2 _ (List.mem_map.2 ⟨t, htm, rfl⟩))
    · exact fun t htm => g2 _ (List.mem_map.2 ⟨t, htm, rfl⟩)
  · have hl := (visit_spec ht).1
    have hpos : 0 < ts.length := List.length_pos_iff.2 hne
    refine ⟨_, by unfold averageAspectRatio; rw [if_neg (by omega), corners_mapM ht], ?_⟩
    rw [← hl, le_div_iff₀ (by exact_mod_cast hpos), foldl_add, zero_add, one_mul, List.map_map]
    have : ∀ l : List (Tri K), (l.length : K) ≤ (l.map (aspectRatio norm eps root3 ∘ fun t => (⟨t.p1, t.p2, t.p3⟩ : V3 (V3 K)))).sum := by
      intro l
      induction l with
      | nil => simp
      | cons t l ih =>
        rw [List.map_cons, List.sum_cons, List.length_cons]
        push_cast
        have := h1 t.p1 t.p2 t.p3
        simp only [Function.comp_apply] at *
        linarith
    exact this ts

/-- C63 is not empty: the hypotheses hold for the tetrahedron, with the exact norm of its area vectors; the quality estimate is zero, the
volume is one, and the parallel sums with two threads agree. -/
example : exTetra.check = true ∧ exTetra.visit.all (fun ts => decide (ClosedSurface ts) && decide (volume6 ts = 6) && ts.all fun t =>
      decide (exNorm (triangleArea2 t.p1 t.p2 t.p3) * t.normal.x = (triangleArea2 t.p1 t.p2 t.p3).x ∧
        exNorm (triangleArea2 t.p1 t.p2 t.p3) * t.normal.y = (triangleArea2 t.p1 t.p2 t.p3).y ∧
        exNorm (triangleArea2 t.p1 t.p2 t.p3) * t.normal.z = (triangleArea2 t.p1 t.p2 t.p3).z)) = true ∧
    meshVolume exNorm exTetra = some 1 ∧ estimateQuality exNorm (1 / 10 ^ 14) exTetra = some 0 ∧
    meshVolumeOMP exNorm exTetra [[3, 1], [0, 2]] = some 1 ∧ boundingBox (10 ^ 100) exTetra = some (⟨0, 0, 0⟩, ⟨2, 1, 3⟩) := by decide +kernel

/-! ## C64: computed normals -/

/-- C64: the normal computed from the corners is the unit vector of the area vector if twice the area is above the zero tolerance, and zero
otherwise, whichever pair of edges is used. -/
theorem C64_normal {norm : V3 K → K} (hn : IsNorm3 norm) {zt : K} (hz : 0 ≤ zt) (a b c : V3 K) :
    (zt < norm (triangleArea2 a b c) → norm (normal norm zt ⟨a, b, c⟩) = 1 ∧
      norm (triangleArea2 a b c) * (normal norm zt ⟨a, b, c⟩).x = (triangleArea2 a b c).x ∧
      norm (triangleArea2 a b c) * (normal norm zt ⟨a, b, c⟩).y = (triangleArea2 a b c).y ∧
      norm (triangleArea2 a b c) * (normal norm zt ⟨a, b, c⟩).z = (triangleArea2 a b c).z) ∧
    (norm (triangleArea2 a b c) ≤ zt → normal norm zt ⟨a, b, c⟩ = ⟨0, 0, 0⟩) := by
  rw [normal_eq]
  constructor
  · intro h
    rw [if_pos h]
    have hp : norm (triangleArea2 a b c) ≠ 0 := ne_of_gt (lt_of_le_of_lt hz h)
    refine ⟨?_, ?_, ?_, ?_⟩
    · have h0 : (0 : K) ≤ 1 / norm (triangleArea2 a b c) := by
        have := (hn (triangleArea2 a b c)).1
        positivity
      have := norm_scale hn h0 (triangleArea2 a b c)
      have e : V3.scale (1 / norm (triangleArea2 a b c)) (triangleArea2 a b c) = ⟨(triangleArea2 a b c).x * (1 / norm (triangleArea2 a b c)),
          (triangleArea2 a b c).y * (1 / norm (triangleArea2 a b c)), (triangleArea2 a b c).z * (1 / norm (triangleArea2 a b c))⟩ := by
        simp only [V3.scale, mul_comm]
      rw [e, this]
      field_simp
    · simp only [V3.scale_x]; field_simp
    · simp only [V3.scale_y]; field_simp
    · simp only [V3.scale_z]; field_simp
  · intro h
    rw [if_neg (not_lt.2 h)]

/-- C64: a mesh whose normals are computed has unit normals if all areas are above the tolerance. -/
theorem C64_unit_normals {norm : V3 K → K} (hn : IsNorm3 norm) {zt : K} (hz : 0 ≤ zt) {ts : List (Tri K)}
    (hc : ∀ t ∈ ts, t.normal = normal norm zt ⟨t.p1, t.p2, t.p3⟩) (ha : ∀ t ∈ ts, zt < norm (triangleArea2 t.p1 t.p2 t.p3)) : UnitNormals norm ts := by
  intro t ht
  rw [hc t ht]
  exact ((C64_normal hn hz t.p1 t.p2 t.p3).1 (ha t ht)).2

/-- C64, the limit: a mesh of triangles with (twice) an area not above the tolerance, for example a box with edges of 1e-7, has computed normals
that are zero; its computed volume is zero although it encloses a volume. -/
theorem C64_small_false_of_code {norm : V3 K → K} (hn : IsNorm3 norm) {zt h : K} (hz : 0 ≤ zt) (hh : 0 < h) (hs : h ^ 2 ≤ zt) :
    ∃ (m : Mesh K) (ts : List (Tri K)), m.check = true ∧ m.visit = some ts ∧ (∀ t ∈ ts, t.normal = normal norm zt ⟨t.p1, t.p2, t.p3⟩) ∧
      ClosedSurface ts ∧ volume6 ts = 6 * h ^ 3 ∧ meshVolume norm m = some 0 := by
  have hb := makeMeshBox_has (⟨0, 0, 0⟩ : V3 K) ⟨h, h, h⟩
  have hun := box_normals hn (l := ⟨0, 0, 0⟩) (u := ⟨h, h, h⟩) hh.le hh.le hh.le
  have hsmall : ∀ t ∈ boxTris (⟨0, 0, 0⟩ : V3 K) ⟨h, h, h⟩, norm (triangleArea2 t.p1 t.p2 t.p3) ≤ zt := by
    intro t ht
    have h2 : |h * h| = h ^ 2 := by rw [abs_of_pos (mul_pos hh hh)]; ring
    have h3 : |-(h * h)| = h ^ 2 := by rw [abs_neg, h2]
    simp only [boxTris, List.mem_cons, List.not_mem_nil, or_false] at ht
    rcases ht with rfl | rfl | rfl | rfl | rfl | rfl | rfl | rfl | rfl | rfl | rfl | rfl <;>
      simp [triangleArea2, norm_x hn, norm_y hn, norm_z hn, h2, h3, hs]
  have hzero : ∀ t ∈ boxTris (⟨0, 0, 0⟩ : V3 K) ⟨h, h, h⟩, normal norm zt ⟨t.p1, t.p2, t.p3⟩ = ⟨0, 0, 0⟩ :=
    fun t ht => (C64_normal hn hz t.p1 t.p2 t.p3).2 (hsmall t ht)
  have hclosed : ClosedSurface (boxTris (⟨0, 0, 0⟩ : V3 K) ⟨h, h, h⟩) := by
    obtain ⟨ts, h1, h2, -, -, -, -, h3, -⟩ := C37_box hn (l := ⟨0, 0, 0⟩) (u := ⟨h, h, h⟩) hh.le hh.le hh.le
    rw [hb.2] at h2
    injection h2 with h2
    rw [h2]; exact h3
  obtain ⟨hm, hv⟩ := has_zeroNormals hb
  refine ⟨_, _, hm, hv, ?_, ?_, ?_, ?_⟩
  · intro t ht
    obtain ⟨s, hs', rfl⟩ := List.mem_map.1 ht
    exact (hzero s hs').symm
  · unfold ClosedSurface at hclosed ⊢
    have : ∀ l : List (Tri K), (l.map fun t => ({ t with normal := ⟨0, 0, 0⟩ } : Tri K)).flatMap edgesOf = l.flatMap edgesOf := by
      intro l
      rw [List.flatMap_map]; rfl
    rw [this]; exact hclosed
  · have := box_volume (⟨0, 0, 0⟩ : V3 K) ⟨h, h, h⟩
    unfold volume6 at this ⊢
    rw [List.map_map]
    simp only [sub_zero] at this
    have e : 6 * h ^ 3 = 6 * (h * h * h) := by ring
    rw [e, ← this]
    rfl
  · unfold meshVolume
    rw [hv]
    simp only [foldl_add, zero_add, List.map_map]
    have : ∀ l : List (Tri K), (l.map (volumeTerm norm ∘ fun t => ({ t with normal := ⟨0, 0, 0⟩ } : Tri K))).sum = 0 := by
      intro l
      induction l with
      | nil => rfl
      | cons t l ih => rw [List.map_cons, List.sum_cons, ih]; simp [volumeTerm, V3.dot]
    rw [this]; simp

/-- C64 is not empty: computed normals of a large and of a small triangle. -/
example : normal exNorm (1 / 10 ^ 14) ⟨⟨2, 0, 0⟩, ⟨0, 1, 0⟩, ⟨0, 0, 3⟩⟩ = ⟨3 / 7, 6 / 7, 2 / 7⟩ ∧
    normal exNorm (1 / 10 ^ 14) ⟨⟨0, 0, 0⟩, ⟨1 / 10 ^ 8, 0, 0⟩, ⟨0, 1 / 10 ^ 8, 0⟩⟩ = ⟨0, 0, 0⟩ := by decide +kernel

/-! ## C65: removal -/

omit [Field K] [LinearOrder K] [IsStrictOrderedRing K] in
/-- C65: removing a triangle of a valid mesh removes this triangle and no other one, keeps all vertices and gives a valid mesh; only the last triangle
changes its place.  Without such a triangle memory outside the vectors is accessed. -/
theorem C65_remove {m : Mesh K} (hm : m.check = true) {ts : List (Tri K)} (hv : m.visit = some ts) (tid : Nat) :
    (∀ t, ts[tid]? = some t → ∃ m' ts', m.removeTriangle tid = some m' ∧ m'.check = true ∧ m'.visit = some ts' ∧ m'.vertices = m.vertices ∧
      (t :: ts').Perm ts ∧ ∀ i, i + 1 < ts.length → i ≠ tid → ts'[i]? = ts[i]?) ∧ (ts[tid]? = none → m.removeTriangle tid = none) := by
  refine ⟨fun t ht => removeTriangle_spec hm hv ht, fun h => ?_⟩
  have hl := (visit_spec hv).1
  have : ts.length ≤ tid := List.getElem?_eq_none_iff.1 h
  unfold Mesh.removeTriangle
  split
  · rw [if_neg (by omega)]
  · rfl

/-- C65 is not empty: the second of four triangles is removed. -/
example : exTetra.check = true ∧ (exTetra.removeTriangle 1).map Mesh.triangles = some [⟨0, 2, 1⟩, ⟨1, 2, 3⟩, ⟨0, 3, 2⟩] := by decide +kernel

end QuESo.MeshUtil
