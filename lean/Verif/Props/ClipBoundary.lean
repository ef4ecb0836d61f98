import Verif.Proofs.ClipBoundary
import Verif.Props.BRep
import Verif.Proofs.Surface
import Verif.Proofs.TrimmedDomain

/-!
# The boundary of a clipped surface (C101)
-/
namespace QuESo.BRep
open QuESo.AABBTree (Fault Node)
open QuESo.GQ QuESo.Spec QuESo.IO QuESo.Clip
variable {K : Type} [Field K] [LinearOrder K] [IsStrictOrderedRing K]

theorem sum_bothWays {es : List (V3 K × V3 K)} (h : BothWays es) (g : V3 K → V3 K → K) (hg : ∀ a b, g b a = -g a b) :
    (es.map fun e => g e.1 e.2).sum = 0 := by
  have h1 : (es.map fun e => g e.1 e.2).sum = ((es.map Prod.swap).map fun e => g e.1 e.2).sum := (h.map _).sum_eq
  have h2 : ∀ l : List (V3 K × V3 K), ((l.map Prod.swap).map fun e => g e.1 e.2).sum = -(l.map fun e => g e.1 e.2).sum := by
    intro l
    induction l with
    | nil => simp
    | cons e l ih =>
      rw [List.map_cons, List.map_cons, List.sum_cons, ih, List.map_cons, List.sum_cons]
      simp only [Prod.fst_swap, Prod.snd_swap, hg e.1 e.2]
      ring
  rw [h2] at h1
  linarith

omit [LinearOrder K] [IsStrictOrderedRing K] in
/-- The edges of the triangles are the recorded ones and the others. -/
theorem edges_split {m : ClippedMesh K} {ts : List (Tri K)} (hv : m.mesh.visit = some ts) :
    (ts.flatMap edgesOf).Perm (cutEdges m ++ looseEdges m) := by
  have key : ∀ l : List Nat, (∀ i ∈ l, i < m.mesh.triangles.length) → (l.flatMap fun i => match m.mesh.triangle i with
      | some s => edgesOf s
      | none => []).Perm ((l.flatMap fun i => ((indexEdgesAt m.mesh i).filter fun e => Recorded m i e.1 e.2).flatMap (endPoints m.mesh)) ++
        l.flatMap fun i => ((indexEdgesAt m.mesh i).filter fun e => ¬ Recorded m i e.1 e.2).flatMap (endPoints m.mesh)) := by
    intro l hl
    induction l with
    | nil => exact List.Perm.refl _
    | cons i l ih =>
      simp only [List.flatMap_cons]
      have h1 : (match m.mesh.triangle i with | some s => edgesOf s | none => []) = (indexEdgesAt m.mesh i).flatMap (endPoints m.mesh) := by
        obtain ⟨-, h2⟩ := mapM_range_some _ _ _ hv
        have h3 := h2 i (hl i (by simp))
        have hlen := (mapM_range_some _ _ _ hv).1
        rw [List.getElem?_eq_getElem (by rw [hlen]; exact hl i (by simp))] at h3
        rw [h3]
        simp only
        generalize ts[i]'(by rw [hlen]; exact hl i (by simp)) = s at h3
        have hc := triangle_corners h3
        unfold Mesh.corners at hc
        unfold indexEdgesAt
        cases ht : m.mesh.triangles[i]? with
        | none => rw [ht] at hc; cases hc
        | some t =>
          rw [ht] at hc
          simp only at hc
          cases h1 : m.mesh.vertices[t.x]? with
          | none => rw [h1] at hc; simp at hc
          | some a =>
            cases h2 : m.mesh.vertices[t.y]? with
            | none => rw [h1, h2] at hc; simp at hc
            | some b =>
              cases h3 : m.mesh.vertices[t.z]? with
              | none => rw [h1, h2, h3] at hc; simp at hc
              | some c =>
                rw [h1, h2, h3] at hc
                simp at hc
                obtain ⟨rfl, rfl, rfl⟩ := hc
                simp [List.flatMap_cons, endPoints, h1, h2, h3, edgesOf]
      rw [h1]
      have h4 := ((List.filter_append_perm (fun e => decide (Recorded m i e.1 e.2)) (indexEdgesAt m.mesh i)).symm.flatMap_right (endPoints m.mesh))
      rw [List.flatMap_append] at h4
      have e5 : (indexEdgesAt m.mesh i).filter (fun e => ¬ Recorded m i e.1 e.2) = (indexEdgesAt m.mesh i).filter (fun e => !decide (Recorded m i e.1 e.2)) :=
        List.filter_congr fun e _ => by simp
      rw [e5]
      refine (h4.append (ih fun j hj => hl j (by simp [hj]))).trans ?_
      simp only [List.append_assoc]
      refine List.Perm.append_left _ ?_
      rw [← List.append_assoc, ← List.append_assoc]
      exact List.Perm.append_right _ List.perm_append_comm
  rw [visit_range hv]
  exact key _ fun i hi => List.mem_range.1 hi

/-- What is measured along the edges of a surface that is closed except along the recorded edges. -/
theorem edgeSum_of_loose {out : ClippedMesh K} (h : BothWays (looseEdges out)) {ts : List (Tri K)} (hv : out.mesh.visit = some ts)
    {g : V3 K → V3 K → K} (hg : ∀ a b, g b a = -g a b) : edgeSum g ts = ((cutEdges out).map fun e => g e.1 e.2).sum := by
  unfold edgeSum
  rw [((edges_split hv).map fun e => g e.1 e.2).sum_eq, List.map_append, List.sum_append, sum_bothWays h g hg, add_zero]

/-- The area vector of a surface that is closed except along the recorded edges. -/
theorem area_of_loose (out : ClippedMesh K) (h : BothWays (looseEdges out)) (ts : List (Tri K)) (hv : out.mesh.visit = some ts) :
    surfaceArea2 ts = circulation (cutEdges out) := by
  have key : ∀ g : V3 K → V3 K → K, (∀ a b, g b a = -g a b) →
      (ts.map fun t => g t.p1 t.p2 + g t.p2 t.p3 + g t.p3 t.p1).sum = ((cutEdges out).map fun e => g e.1 e.2).sum := by
    intro g hg
    rw [← MeshUtil.sum_flatMap_edges, edgeSum_of_loose h hv hg]
  unfold surfaceArea2 circulation sumV
  simp only [List.map_map, V3.mk.injEq]
  refine ⟨?_, ?_, ?_⟩
  · refine Eq.trans ?_ (key (fun a b => a.y * b.z - a.z * b.y) (fun a b => by ring))
    congr 1; refine List.map_congr_left fun t _ => ?_
    simp only [Function.comp_apply, triangleArea2]; ring
  · refine Eq.trans ?_ (key (fun a b => a.z * b.x - a.x * b.z) (fun a b => by ring))
    congr 1; refine List.map_congr_left fun t _ => ?_
    simp only [Function.comp_apply, triangleArea2]; ring
  · refine Eq.trans ?_ (key (fun a b => a.x * b.y - a.y * b.x) (fun a b => by ring))
    congr 1; refine List.map_congr_left fun t _ => ?_
    simp only [Function.comp_apply, triangleArea2]; ring

/-- C101: if a closed surface is clipped by a box that is not tiny and that decides clearly about every triangle, the clipped
surface is closed except along the edges that are recorded on the six faces: the other edges are used in one direction as often
as in the other one.  The recorded edges lie on their faces, and they alone determine the area vector of the clipped surface. -/
theorem C101_closed_partial (node : Node K) (maxd zt snaptol snap : K) (hz : 0 ≤ zt) (hs : 0 < snaptol) (m : Mesh K) (hm : m.check = true)
    (hne : m.triangles ≠ []) (hn : m.triangles.length ≤ 2 ^ 30) (closed : Bool) (lo up : V3 K)
    (hsnap : snap = 1 / 10 * max (max (up.x - lo.x) (max (up.y - lo.y) (up.z - lo.z)) * snaptol) snaptol)
    (hx : 2 * snap ≤ up.x - lo.x) (hy : 2 * snap ≤ up.y - lo.y) (hz' : 2 * snap ≤ up.z - lo.z)
    (ts : List (Tri K)) (hv : m.visit = some ts) (hcl : ClosedSurface ts) (hdec : ∀ t ∈ ts, Decided zt snap lo up t) :
    ∃ g out, Query.new node maxd m closed = .ok g ∧ clipTriangleMesh zt snaptol g lo up = .ok out ∧ BothWays (looseEdges out) ∧
      Domain.EdgesOk zt lo up out ∧ ∀ ts', out.mesh.visit = some ts' → surfaceArea2 ts' = circulation (cutEdges out) := by
  have h0 : 0 < snap := by
    have : snaptol ≤ max (max (up.x - lo.x) (max (up.y - lo.y) (up.z - lo.z)) * snaptol) snaptol := le_max_right _ _
    rw [hsnap]; linarith
  obtain ⟨g, ids, h1, h2, h3, h4⟩ := C55_triangle_ids node maxd m hm hne hn closed lo up snap h0.le hx hy hz'
  obtain ⟨out, ts', g1, g2, -, -, -⟩ := clip_pipeline hz h0 (le_max_left snap (10 * zt)) (le_max_right _ _) hm lo up ids h3 h4
  have hloose := loose_of_ids hz h0 hv hcl hdec h3 h4 g1
  refine ⟨g, out, h1, ?_, hloose, Domain.edgesOk_clipLoop hz lo up ids _ _ ?_ (Domain.edgesOk_empty zt lo up) g1, fun ts' hv' => area_of_loose out hloose ts' hv'⟩
  case refine_2 =>
    intro i hi s hs'
    obtain ⟨c, hc, q, q1, q2⟩ := (h4 i).1 hi
    rw [triangle_corners hs'] at hc
    cases hc
    exact overlap_of_point h0 q1 q2
  obtain ⟨cs, t, k1, -⟩ := new_spec node maxd hm hn closed
  rw [k1] at h1
  cases h1
  simp only [clipTriangleMesh, relativeSnapTolerance, ← hsnap, h2, g1, g2]

/-- C101 for the variant with unique ownership of faces, which clips by the box moved by 30 zero tolerances. -/
theorem C101_closed_unique_partial (node : Node K) (maxd zt : K) (hz : 0 < zt) (m : Mesh K) (hm : m.check = true)
    (hne : m.triangles ≠ []) (hn : m.triangles.length ≤ 2 ^ 30) (closed : Bool) (lo up lower upper : V3 K)
    (hl : lower = ⟨lo.x + 30 * zt, lo.y + 30 * zt, lo.z + 30 * zt⟩) (hu : upper = ⟨up.x + 30 * zt, up.y + 30 * zt, up.z + 30 * zt⟩)
    (hx : 2 * zt ≤ up.x - lo.x) (hy : 2 * zt ≤ up.y - lo.y) (hz' : 2 * zt ≤ up.z - lo.z)
    (ts : List (Tri K)) (hv : m.visit = some ts) (hcl : ClosedSurface ts) (hdec : ∀ t ∈ ts, Decided zt zt lower upper t) :
    ∃ g out, Query.new node maxd m closed = .ok g ∧ clipTriangleMeshUnique zt g lo up = .ok out ∧ BothWays (looseEdges out) ∧
      Domain.EdgesOk zt lower upper out ∧ ∀ ts', out.mesh.visit = some ts' → surfaceArea2 ts' = circulation (cutEdges out) := by
  have hx2 : 2 * zt ≤ upper.x - lower.x := by rw [hl, hu]; simp only; linarith
  have hy2 : 2 * zt ≤ upper.y - lower.y := by rw [hl, hu]; simp only; linarith
  have hz2 : 2 * zt ≤ upper.z - lower.z := by rw [hl, hu]; simp only; linarith
  obtain ⟨g, ids, h1, h2, h3, h4⟩ := C55_triangle_ids node maxd m hm hne hn closed lower upper zt hz.le hx2 hy2 hz2
  obtain ⟨out, ts', g1, g2, -, -, -⟩ := clip_pipeline hz.le hz (by linarith : zt ≤ 10 * zt) le_rfl hm lower upper ids h3 h4
  obtain ⟨cs, t, e1, -⟩ := new_spec node maxd hm hn closed
  have hloose := loose_of_ids hz.le hz hv hcl hdec h3 h4 g1
  refine ⟨g, out, h1, ?_, hloose, Domain.edgesOk_clipLoop hz.le lower upper ids _ _ ?_ (Domain.edgesOk_empty zt lower upper) g1, fun ts' hv' => area_of_loose out hloose ts' hv'⟩
  case refine_2 =>
    intro i hi s hs'
    obtain ⟨c, hc, q, q1, q2⟩ := (h4 i).1 hi
    rw [triangle_corners hs'] at hc
    cases hc
    exact overlap_of_point hz q1 q2
  rw [e1] at h1
  cases h1
  have el : lo + (⟨30 * zt, 30 * zt, 30 * zt⟩ : V3 K) = lower := by rw [hl]; rfl
  have eu : up + (⟨30 * zt, 30 * zt, 30 * zt⟩ : V3 K) = upper := by rw [hu]; rfl
  simp only [clipTriangleMeshUnique, el, eu, one_mul, h2, g1, g2]

/-- A tetrahedron with an edge that is less than a tenth of the snap tolerance away from a face of the box with side 1000. -/
def graze : Mesh ℚ :=
  ⟨[⟨1 / (2 * 10 ^ 10), 400, 400⟩, ⟨1 / (2 * 10 ^ 10), 400, 600⟩, ⟨500, 500, 500⟩, ⟨-500, 500, 500⟩],
    [⟨0, 2, 1⟩, ⟨0, 1, 3⟩, ⟨1, 2, 3⟩, ⟨2, 0, 3⟩], [⟨0, -1, 0⟩, ⟨0, -1, 0⟩, ⟨0, 1, 1⟩, ⟨0, 1, -1⟩]⟩

/-- C101 without the hypothesis that the box decides clearly is false of the code: a triangle is left out if it is in the box only
by less than a tenth of the snap tolerance, but its neighbour is cut, and its edge is closed by nothing. -/
theorem C101_false_of_code : ∃ (m : Mesh ℚ) (ts : List (Tri ℚ)) (snap : ℚ) (lo up : V3 ℚ) (g : Query ℚ) (out : ClippedMesh ℚ), m.check = true ∧
    m.visit = some ts ∧ ClosedSurface ts ∧
    snap = 1 / 10 * max (max (up.x - lo.x) (max (up.y - lo.y) (up.z - lo.z)) * (1 / 10 ^ 12)) (1 / 10 ^ 12) ∧
    2 * snap ≤ up.x - lo.x ∧ 2 * snap ≤ up.y - lo.y ∧ 2 * snap ≤ up.z - lo.z ∧
    Query.new ⟨⟨⟨0, 0, 0⟩, ⟨0, 0, 0⟩⟩, 7, 7, 7, 7, 7, 7⟩ (10 ^ 300) m true = .ok g ∧
    clipTriangleMesh (1 / 10 ^ 14) (1 / 10 ^ 12) g lo up = .ok out ∧ ¬ BothWays (looseEdges out) := by
  have h : ((Query.new (K := ℚ) ⟨⟨⟨0, 0, 0⟩, ⟨0, 0, 0⟩⟩, 7, 7, 7, 7, 7, 7⟩ (10 ^ 300) graze true).bind fun g =>
      (clipTriangleMesh (K := ℚ) (1 / 10 ^ 14) (1 / 10 ^ 12) g ⟨0, 0, 0⟩ ⟨1000, 1000, 1000⟩).map fun out =>
        decide (List.Perm (looseEdges out) ((looseEdges out).map Prod.swap))).toOption = some false := by decide +kernel
  have hts : ∃ ts, graze.visit = some ts ∧ List.Perm (ts.flatMap edgesOf) ((ts.flatMap edgesOf).map Prod.swap) := by
    refine ⟨(graze.visit).get (by decide +kernel), by simp, by decide +kernel⟩
  obtain ⟨ts, t1, t2⟩ := hts
  cases hg : Query.new (K := ℚ) ⟨⟨⟨0, 0, 0⟩, ⟨0, 0, 0⟩⟩, 7, 7, 7, 7, 7, 7⟩ (10 ^ 300) graze true with
  | error e => rw [hg] at h; simp [Except.bind, Except.toOption] at h
  | ok g =>
    rw [hg] at h
    simp only [Except.bind] at h
    cases ho : clipTriangleMesh (K := ℚ) (1 / 10 ^ 14) (1 / 10 ^ 12) g ⟨0, 0, 0⟩ ⟨1000, 1000, 1000⟩ with
    | error e => rw [ho] at h; simp [Except.map, Except.toOption] at h
    | ok out =>
      rw [ho] at h
      simp only [Except.map, Except.toOption, Option.some.injEq, decide_eq_false_iff_not] at h
      exact ⟨graze, ts, 1 / 10 ^ 10, ⟨0, 0, 0⟩, ⟨1000, 1000, 1000⟩, g, out, by decide +kernel, t1, t2, by norm_num, by norm_num, by norm_num, by norm_num,
        hg, ho, h⟩

/-- The hypotheses of `C101_closed_partial` are met: the tetrahedron and the box around its corner.  Three of its triangles have points in
the box, the fourth one is far away. -/
example : ∃ ts snap, tetra.visit = some ts ∧ ClosedSurface ts ∧
    snap = 1 / 10 * max (max ((1 : ℚ) - -1) (max (1 - -1) (1 - -1)) * (1 / 10 ^ 12)) (1 / 10 ^ 12) ∧ 2 * snap ≤ 1 - -1 ∧
    ∀ t ∈ ts, Decided (1 / 10 ^ 14) snap ⟨-1, -1, -1⟩ ⟨1, 1, 1⟩ t := by
  refine ⟨[⟨⟨0, 0, 0⟩, ⟨0, 4, 0⟩, ⟨4, 0, 0⟩, ⟨0, 0, -1⟩⟩, ⟨⟨0, 0, 0⟩, ⟨4, 0, 0⟩, ⟨0, 0, 4⟩, ⟨0, -1, 0⟩⟩,
    ⟨⟨0, 0, 0⟩, ⟨0, 0, 4⟩, ⟨0, 4, 0⟩, ⟨-1, 0, 0⟩⟩, ⟨⟨4, 0, 0⟩, ⟨0, 4, 0⟩, ⟨0, 0, 4⟩, ⟨1, 1, 1⟩⟩], 2 / 10 ^ 13, by decide +kernel, ?_, by norm_num, by norm_num, ?_⟩
  · unfold ClosedSurface; decide +kernel
  · intro t ht
    simp only [List.mem_cons, List.not_mem_nil, or_false] at ht
    have corner : ∀ a b n : V3 ℚ, Decided (1 / 10 ^ 14) (2 / 10 ^ 13) ⟨-1, -1, -1⟩ ⟨1, 1, 1⟩ (⟨⟨0, 0, 0⟩, a, b, n⟩ : Tri ℚ) := by
      intro a b n
      refine Or.inl ⟨⟨0, 0, 0⟩, ⟨1, 0, 0, by norm_num, by norm_num, by norm_num, by norm_num, by norm_num, by norm_num, by norm_num⟩, ?_⟩
      norm_num [InBoxTol]
    rcases ht with rfl | rfl | rfl | rfl
    · exact corner _ _ _
    · exact corner _ _ _
    · exact corner _ _ _
    · refine Or.inr ?_
      rintro q ⟨u, v, w, -, -, -, h1, hx, hy, hz⟩ ⟨⟨-, h2⟩, ⟨-, h3⟩, -, h4⟩
      norm_num at hx hy hz h2 h3 h4
      linarith

/-- In that case twelve triangles with 36 edges remain; six edges are recorded, and the other ones are used in both directions. -/
example : ((Query.new (K := ℚ) ⟨⟨⟨0, 0, 0⟩, ⟨0, 0, 0⟩⟩, 7, 7, 7, 7, 7, 7⟩ (10 ^ 300) tetra true).bind fun g =>
      (clipTriangleMesh (K := ℚ) (1 / 10 ^ 14) (1 / 10 ^ 12) g ⟨-1, -1, -1⟩ ⟨1, 1, 1⟩).map fun out =>
        ((looseEdges out).length, (cutEdges out).length, decide (List.Perm (looseEdges out) ((looseEdges out).map Prod.swap)))).toOption =
    some (30, 6, true) := by decide +kernel

end QuESo.BRep
