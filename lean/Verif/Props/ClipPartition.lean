import Verif.Proofs.ClipGrid
import Verif.Props.BRep
import Verif.Proofs.EmbeddedModel
import Verif.Proofs.GridIndexer
import Verif.Proofs.Surface
import Mathlib.Analysis.Real.Sqrt

/-!
# The parts of a surface in the cells of the grid (C105)
-/
namespace QuESo.BRep
open QuESo.AABBTree (Fault Node)
open QuESo.GQ QuESo.Spec QuESo.IO QuESo.Clip
variable {K : Type} [Field K] [LinearOrder K] [IsStrictOrderedRing K]

/-- One run of the clipper for unique faces: the pieces of the triangles which meet the shifted box. -/
theorem unique_pieces (node : Node K) (maxd zt : K) (hz : 0 < zt) {m : Mesh K} (hm : m.check = true) (hne : m.triangles ≠ [])
    (hn : m.triangles.length ≤ 2 ^ 30) (closed : Bool) {g : Query K} (hg : Query.new node maxd m closed = .ok g) (lo up lower upper : V3 K)
    (hl : lower = ⟨lo.x + 30 * zt, lo.y + 30 * zt, lo.z + 30 * zt⟩) (hu : upper = ⟨up.x + 30 * zt, up.y + 30 * zt, up.z + 30 * zt⟩)
    (hx : 2 * zt ≤ up.x - lo.x) (hy : 2 * zt ≤ up.y - lo.y) (hz' : 2 * zt ≤ up.z - lo.z) :
    ∃ (out : ClippedMesh K) (ids : List Nat), clipTriangleMeshUnique zt g lo up = .ok out ∧ out.mesh.check = true ∧ ids.Nodup ∧ (∀ i, i ∈ ids ↔ Meets m lower upper zt i) ∧
      out.mesh.visit = some (ids.flatMap (pieces zt m lower upper)) := by
  have hx2 : 2 * zt ≤ upper.x - lower.x := by rw [hl, hu]; simp only; linarith
  have hy2 : 2 * zt ≤ upper.y - lower.y := by rw [hl, hu]; simp only; linarith
  have hz2 : 2 * zt ≤ upper.z - lower.z := by rw [hl, hu]; simp only; linarith
  obtain ⟨g', ids, h1, h2, h3, h4⟩ := C55_triangle_ids node maxd m hm hne hn closed lower upper zt hz.le hx2 hy2 hz2
  rw [hg] at h1
  cases h1
  obtain ⟨cs, t, e1, -⟩ := new_spec node maxd hm hn closed
  rw [hg] at e1
  cases e1
  obtain ⟨out, k1, k2, k3⟩ := clipLoop_spec hz.le hm lower upper ids emptyClipped []
    (fun i hi => by obtain ⟨c, hc, -⟩ := (h4 i).1 hi; exact corners_lt hc) (by rfl) (by rfl)
  have k4 : finish out = .ok out := by
    unfold finish
    rw [k2]
    split <;> rfl
  have el : lo + (⟨30 * zt, 30 * zt, 30 * zt⟩ : V3 K) = lower := by rw [hl]; rfl
  have eu : up + (⟨30 * zt, 30 * zt, 30 * zt⟩ : V3 K) = upper := by rw [hu]; rfl
  refine ⟨out, ids, ?_, k2, h3, h4, by simpa using k3⟩
  simp only [clipTriangleMeshUnique, el, eu, one_mul, h2, k1, k4]

/-- The same for the clipper of the trimmed domains. -/
theorem clip_pieces (node : Node K) (maxd zt snaptol snap : K) (hz : 0 ≤ zt) (h0 : 0 < snap) {m : Mesh K} (hm : m.check = true)
    (hne : m.triangles ≠ []) (hn : m.triangles.length ≤ 2 ^ 30) (closed : Bool) {g : Query K} (hg : Query.new node maxd m closed = .ok g) (lo up : V3 K)
    (hsnap : snap = 1 / 10 * max (max (up.x - lo.x) (max (up.y - lo.y) (up.z - lo.z)) * snaptol) snaptol)
    (hx : 2 * snap ≤ up.x - lo.x) (hy : 2 * snap ≤ up.y - lo.y) (hz' : 2 * snap ≤ up.z - lo.z) :
    ∃ (out : ClippedMesh K) (ids : List Nat), clipTriangleMesh zt snaptol g lo up = .ok out ∧ out.mesh.check = true ∧ ids.Nodup ∧ (∀ i, i ∈ ids ↔ Meets m lo up snap i) ∧
      out.mesh.visit = some (ids.flatMap (pieces zt m lo up)) := by
  obtain ⟨g', ids, h1, h2, h3, h4⟩ := C55_triangle_ids node maxd m hm hne hn closed lo up snap h0.le hx hy hz'
  rw [hg] at h1
  cases h1
  obtain ⟨cs, t, e1, -⟩ := new_spec node maxd hm hn closed
  rw [hg] at e1
  cases e1
  obtain ⟨out, k1, k2, k3⟩ := clipLoop_spec hz hm lo up ids emptyClipped []
    (fun i hi => by obtain ⟨c, hc, -⟩ := (h4 i).1 hi; exact corners_lt hc) (by rfl) (by rfl)
  have k4 : finish out = .ok out := by
    unfold finish
    rw [k2]
    split <;> rfl
  refine ⟨out, ids, ?_, k2, h3, h4, by simpa using k3⟩
  simp only [clipTriangleMesh, relativeSnapTolerance, ← hsnap, h2, k1, k4]

/-- C105: clipping with unique faces by all cells of a grid, in any order, never fails, and the pieces of all cells together make up the
surface: nothing is lost and nothing appears twice, if the surface is inside the grid and clear of its (moved) planes.  Areas, directed areas and
volumes of the pieces add up to those of the surface. -/
theorem C105_unique_partial (node : Node K) (maxd zt : K) (hz : 0 < zt) (m : Mesh K) (hm : m.check = true) (hne : m.triangles ≠ [])
    (hn : m.triangles.length ≤ 2 ^ 30) (closed : Bool) (ts : List (Tri K)) (hv : m.visit = some ts) (c : Nat → Nat → K) (n : Nat → Nat)
    (hw : ∀ d < 3, ∀ i < n d, c d i + 20 * zt < c d (i + 1))
    (hc : ∀ t ∈ ts, ClearOfGrid (fun d i => c d i + 30 * zt) n (10 * zt) t.p1 t.p2 t.p3) (cells : List (V3 Nat)) (hp : cells.Perm (gridCells n)) :
    ∃ (g : Query K) (out : V3 Nat → ClippedMesh K) (ps : V3 Nat → List (Tri K)), Query.new node maxd m closed = .ok g ∧
      (∀ k ∈ cells, clipTriangleMeshUnique zt g (lowerCorner c k) (upperCorner c k) = .ok (out k) ∧ (out k).mesh.check = true ∧
        (out k).mesh.visit = some (ps k)) ∧
      MakeUpSurface ts (cells.flatMap ps) ∧ surfaceArea2 (cells.flatMap ps) = surfaceArea2 ts ∧ volume6 (cells.flatMap ps) = volume6 ts ∧
      ∀ norm, IsNorm3 norm → totalArea norm (cells.flatMap ps) = totalArea norm ts := by
  obtain ⟨cs, t, e1, -⟩ := new_spec node maxd hm hn closed
  set g : Query K := ⟨m, t, _, _, closed⟩ with hgdef
  have key : ∀ k, IsCell n k → ∃ (out : ClippedMesh K) (ids : List Nat), clipTriangleMeshUnique zt g (lowerCorner c k) (upperCorner c k) = .ok out ∧ out.mesh.check = true ∧
      ids.Nodup ∧ (∀ i, i ∈ ids ↔ Meets m (lowerCorner (fun d i => c d i + 30 * zt) k) (upperCorner (fun d i => c d i + 30 * zt) k) zt i) ∧
      out.mesh.visit = some (ids.flatMap (pieces zt m (lowerCorner (fun d i => c d i + 30 * zt) k) (upperCorner (fun d i => c d i + 30 * zt) k))) := by
    intro k hk
    have h0 := hw 0 (by norm_num) k.x (hk 0 (by norm_num))
    have h1 := hw 1 (by norm_num) k.y (hk 1 (by norm_num))
    have h2 := hw 2 (by norm_num) k.z (hk 2 (by norm_num))
    exact unique_pieces node maxd zt hz hm hne hn closed e1 _ _ _ _ rfl rfl (by simp only [lowerCorner, upperCorner]; linarith)
      (by simp only [lowerCorner, upperCorner]; linarith) (by simp only [lowerCorner, upperCorner]; linarith)
  haveI : Nonempty (ClippedMesh K) := ⟨emptyClipped⟩
  choose! out ids k1 k2 k3 k4 k5 using key
  have hmk : MakeUpSurface ts (cells.flatMap fun k => (ids k).flatMap (pieces zt m (lowerCorner (fun d i => c d i + 30 * zt) k) (upperCorner (fun d i => c d i + 30 * zt) k))) :=
    grid_makeUp (tol := fun _ => zt) hz.le le_rfl (fun _ _ => ⟨hz, by linarith⟩) (fun d hd i hi => by have := hw d hd i hi; linarith) hv hc hp
      (fun k hk => ⟨ids k, k3 k hk, k4 k hk, rfl⟩)
  exact ⟨g, out, _, e1, fun k hk => have hk' := isCell_iff.1 (hp.mem_iff.1 hk); ⟨k1 k hk', k2 k hk', k5 k hk'⟩, hmk, makeUp_area hmk, makeUp_volume hmk,
    fun norm h => makeUp_totalArea h hmk⟩

/-- C105: the same for the clipping of the trimmed domains, by the boxes of the cells themselves.  `snap k` is a tenth of the snap tolerance
relative to the longest side of the cell. -/
theorem C105_clip_partial (node : Node K) (maxd zt snaptol δ : K) (hz : 0 ≤ zt) (hs : 0 < snaptol) (hδ : 10 * zt ≤ δ) (m : Mesh K) (hm : m.check = true)
    (hne : m.triangles ≠ []) (hn : m.triangles.length ≤ 2 ^ 30) (closed : Bool) (ts : List (Tri K)) (hv : m.visit = some ts)
    (c : Nat → Nat → K) (n : Nat → Nat) (hw : ∀ d < 3, ∀ i < n d, c d i + 20 * zt < c d (i + 1)) (snap : V3 Nat → K)
    (hsnap : ∀ k ∈ gridCells n, snap k = 1 / 10 * max (max ((upperCorner c k).x - (lowerCorner c k).x) (max ((upperCorner c k).y - (lowerCorner c k).y)
      ((upperCorner c k).z - (lowerCorner c k).z)) * snaptol) snaptol)
    (hsm : ∀ k ∈ gridCells n, 9 * snap k ≤ δ ∧ ∀ d < 3, 2 * snap k ≤ (upperCorner c k).get d - (lowerCorner c k).get d)
    (hc : ∀ t ∈ ts, ClearOfGrid c n δ t.p1 t.p2 t.p3) (cells : List (V3 Nat)) (hp : cells.Perm (gridCells n)) :
    ∃ (g : Query K) (out : V3 Nat → ClippedMesh K) (ps : V3 Nat → List (Tri K)), Query.new node maxd m closed = .ok g ∧
      (∀ k ∈ cells, clipTriangleMesh zt snaptol g (lowerCorner c k) (upperCorner c k) = .ok (out k) ∧ (out k).mesh.check = true ∧
        (out k).mesh.visit = some (ps k)) ∧
      MakeUpSurface ts (cells.flatMap ps) ∧ surfaceArea2 (cells.flatMap ps) = surfaceArea2 ts ∧ volume6 (cells.flatMap ps) = volume6 ts ∧
      ∀ norm, IsNorm3 norm → totalArea norm (cells.flatMap ps) = totalArea norm ts := by
  obtain ⟨cs, t, e1, -⟩ := new_spec node maxd hm hn closed
  set g : Query K := ⟨m, t, _, _, closed⟩ with hgdef
  have hpos : ∀ k, IsCell n k → 0 < snap k := fun k hk => by
    have : snaptol ≤ max (max ((upperCorner c k).x - (lowerCorner c k).x) (max ((upperCorner c k).y - (lowerCorner c k).y)
      ((upperCorner c k).z - (lowerCorner c k).z)) * snaptol) snaptol := le_max_right _ _
    rw [hsnap k (isCell_iff.2 hk)]; linarith
  have key : ∀ k, IsCell n k → ∃ (out : ClippedMesh K) (ids : List Nat), clipTriangleMesh zt snaptol g (lowerCorner c k) (upperCorner c k) = .ok out ∧ out.mesh.check = true ∧
      ids.Nodup ∧ (∀ i, i ∈ ids ↔ Meets m (lowerCorner c k) (upperCorner c k) (snap k) i) ∧
      out.mesh.visit = some (ids.flatMap (pieces zt m (lowerCorner c k) (upperCorner c k))) := by
    intro k hk
    have hk' := isCell_iff.2 hk
    exact clip_pieces node maxd zt snaptol (snap k) hz (hpos k hk) hm hne hn closed e1 _ _ (hsnap k hk') ((hsm k hk').2 0 (by norm_num))
      ((hsm k hk').2 1 (by norm_num)) ((hsm k hk').2 2 (by norm_num))
  haveI : Nonempty (ClippedMesh K) := ⟨emptyClipped⟩
  choose! out ids k1 k2 k3 k4 k5 using key
  have hmk : MakeUpSurface ts (cells.flatMap fun k => (ids k).flatMap (pieces zt m (lowerCorner c k) (upperCorner c k))) :=
    grid_makeUp (tol := snap) hz hδ (fun k hk => ⟨hpos k hk, (hsm k (isCell_iff.2 hk)).1⟩) hw hv hc hp
      (fun k hk => ⟨ids k, k3 k hk, k4 k hk, rfl⟩)
  exact ⟨g, out, _, e1, fun k hk => have hk' := isCell_iff.1 (hp.mem_iff.1 hk); ⟨k1 k hk', k2 k hk', k5 k hk'⟩, hmk, makeUp_area hmk, makeUp_volume hmk,
    fun norm h => makeUp_totalArea h hmk⟩

/-! ## The segments of a condition -/

theorem box_corners (n : V3 Nat) (dom : Box K) (hd : ∀ d < 3, dom.lower.get d ≤ dom.upper.get d) (i : Nat) :
    (Grid.boxXYZ n dom i).lower = lowerCorner (gridPlanes n dom) (Grid.toMat n i) ∧
      (Grid.boxXYZ n dom i).upper = upperCorner (gridPlanes n dom) (Grid.toMat n i) := by
  have h0 : dom.lower.x ≤ dom.upper.x := hd 0 (by norm_num)
  have h1 : dom.lower.y ≤ dom.upper.y := hd 1 (by norm_num)
  have h2 : dom.lower.z ≤ dom.upper.z := hd 2 (by norm_num)
  simp only [Grid.boxXYZ, Grid.cellBox, Grid.delta, lowerCorner, upperCorner, gridPlanes, V3.get, abs_of_nonneg (sub_nonneg.2 h0),
    abs_of_nonneg (sub_nonneg.2 h1), abs_of_nonneg (sub_nonneg.2 h2), Nat.cast_add, Nat.cast_one, add_comm, and_self]

theorem cells_perm (n : V3 Nat) : ((List.range (Grid.numElements n)).map (Grid.toMat n)).Perm (gridCells n.get) := by
  refine (List.perm_ext_iff_of_nodup ?_ (gridCells_nodup _)).2 fun k => ?_
  · refine List.nodup_range.map_on fun a _ b _ hab => ?_
    rw [← Grid.toVec_toMat n a, hab, Grid.toVec_toMat]
  · rw [isCell_iff, List.mem_map]
    constructor
    · rintro ⟨i, hi, rfl⟩ d hd
      obtain ⟨h1, h2, h3⟩ := Grid.toMat_inGrid n i (List.mem_range.1 hi)
      match d, hd with
      | 0, _ => exact h1
      | 1, _ => exact h2
      | 2, _ => exact h3
    · intro hk
      have hin : InGrid n k := ⟨hk 0 (by norm_num), hk 1 (by norm_num), hk 2 (by norm_num)⟩
      exact ⟨Grid.toVec n k, List.mem_range.2 (Grid.toVec_lt n k hin), Grid.toMat_toVec n k hin⟩

/-- The segments and the percentage, for any results of clipping with the given triangles. -/
theorem condition_segments {s : BGrid.State (Embedded.Elem K)} {clip : Nat → ClippedMesh K} {ps : Nat → List (Tri K)} {order : List Nat}
    (h : ∀ i ∈ order, (clip i).mesh.visit = some (ps i)) (area : ClippedMesh K → K) (surf : K) :
    let r := Embedded.computeCondition s clip (fun c => c.mesh.triangles.length) area surf order
    ∃ qs : List (List (Tri K)), List.Forall₂ (fun seg q => seg.mesh.mesh.visit = some q) r.1 qs ∧ qs.flatten = order.flatMap ps ∧
      ((∀ i ∈ order, ps i = [] → area (clip i) = 0) → (r.1.map fun seg => area seg.mesh).sum = (order.map fun i => area (clip i)).sum) ∧
      ((∀ seg ∈ r.1, seg.parent ≠ none) → r.2 = (r.1.map fun seg => area seg.mesh).sum / surf * 100) ∧
      ((∀ seg ∈ r.1, 0 ≤ area seg.mesh) → 0 < surf → 0 ≤ r.2 ∧ r.2 ≤ (r.1.map fun seg => area seg.mesh).sum / surf * 100) := by
  intro r
  have hr : r = (order.filterMap (Embedded.segmentOf s clip fun c => c.mesh.triangles.length), (order.map fun i =>
      if (clip i).mesh.triangles.length > 0 ∧ (s.getElement .all (i + 1)).present then area (clip i) else 0).sum / surf * 100) := by
    simp only [r, Embedded.computeCondition, Embedded.condFold_eq, List.nil_append, zero_add]
  rw [hr]
  clear hr r
  simp only
  have hlen : ∀ i ∈ order, ((clip i).mesh.triangles.length > 0 ↔ ps i ≠ []) := fun i hi => by
    rw [← (visit_spec (h i hi)).1, gt_iff_lt, List.length_pos_iff]
  induction order with
  | nil => exact ⟨[], List.Forall₂.nil, rfl, by simp, by simp, by simp⟩
  | cons i l ih =>
    obtain ⟨qs, g1, g2, g3, g4, g5⟩ := ih (fun j hj => h j (by simp [hj])) (fun j hj => hlen j (by simp [hj]))
    have hi := h i (by simp)
    have hl := hlen i (by simp)
    rw [List.filterMap_cons]
    by_cases hp : (clip i).mesh.triangles.length > 0
    · have hs : Embedded.segmentOf s clip (fun c => c.mesh.triangles.length) i = some ⟨i, clip i, Embedded.found (s.getElement .all (i + 1))⟩ := by
        simp only [Embedded.segmentOf, hp, if_true]
      rw [hs]
      simp only [List.map_cons, List.sum_cons, hp, true_and, List.flatMap_cons]
      refine ⟨ps i :: qs, List.Forall₂.cons hi g1, by simp [g2], fun ha => ?_, fun ha => ?_, fun ha hsurf => ?_⟩
      · rw [g3 fun j hj => ha j (by simp [hj])]
      · have hpres : (s.getElement .all (i + 1)).present = true := by
          have := ha _ (List.mem_cons_self ..)
          simp only at this
          cases he : s.getElement .all (i + 1) <;> simp_all [Embedded.found, BGrid.Look.present]
        have := g4 fun seg hseg => ha seg (by simp [hseg])
        rw [if_pos hpres, add_div, add_mul, this]
        ring
      · obtain ⟨b1, b2⟩ := g5 (fun seg hseg => ha seg (by simp [hseg])) hsurf
        have b3 : 0 ≤ area (clip i) := ha _ (List.mem_cons_self ..)
        have b4 : 0 ≤ area (clip i) / surf * 100 := by positivity
        rw [add_div, add_mul, add_div, add_mul]
        split <;> constructor <;> first | linarith | (simp only [zero_div, zero_mul]; linarith)
    · have hs : Embedded.segmentOf s clip (fun c => c.mesh.triangles.length) i = none := by
        simp only [Embedded.segmentOf, hp, if_false]
      have he : ps i = [] := by by_contra hne; exact hp (hl.2 hne)
      rw [hs]
      simp only [List.map_cons, List.sum_cons, hp, false_and, if_false, zero_add, List.flatMap_cons, he, List.nil_append]
      exact ⟨qs, g1, g2, fun ha => by rw [g3 fun j hj => ha j (by simp [hj]), ha i (by simp) he, zero_add], g4, g5⟩

/-- C105: the segments of a condition together make up its surface, under every schedule of the loop: nothing of the surface is lost and nothing
appears in two segments, if the surface is inside the grid and clear of the (moved) planes of the grid.  The areas of the segments add up to the area of the
surface; the reported percentage is between 0 and 100, and 100 if every segment has an active element. -/
theorem C105_condition_partial (node : Node K) (maxd zt : K) (hz : 0 < zt) (m : Mesh K) (hm : m.check = true) (hne : m.triangles ≠ [])
    (hn : m.triangles.length ≤ 2 ^ 30) (closed : Bool) (ts : List (Tri K)) (hv : m.visit = some ts) (n : V3 Nat) (dom : Box K)
    (hN : Grid.numElements n < 2 ^ 31) (hw : ∀ d < 3, 0 < n.get d ∧ 20 * zt * (n.get d : K) < dom.upper.get d - dom.lower.get d)
    (hc : ∀ t ∈ ts, ClearOfGrid (fun d i => gridPlanes n dom d i + 30 * zt) n.get (10 * zt) t.p1 t.p2 t.p3)
    (s : BGrid.State (Embedded.Elem K)) (order : List Nat) (hp : order.Perm (List.range (Embedded.tripCount (Grid.numElements n))))
    (norm : V3 K → K) (hnorm : IsNorm3 norm) (surf : K) (hsurf : MeshUtil.meshArea norm m = some surf) :
    ∃ (g : Query K) (clip : Nat → ClippedMesh K), Query.new node maxd m closed = .ok g ∧
      (∀ i < Grid.numElements n, clipTriangleMeshUnique zt g (Grid.boxXYZ n dom i).lower (Grid.boxXYZ n dom i).upper = .ok (clip i)) ∧
      ∀ area : ClippedMesh K → K, (∀ c a, MeshUtil.meshArea norm c.mesh = some a → area c = a) →
      let r := Embedded.computeCondition s clip (fun c => c.mesh.triangles.length) area surf order
      (∃ qs : List (List (Tri K)), List.Forall₂ (fun seg q => seg.mesh.mesh.visit = some q) r.1 qs ∧ MakeUpSurface ts qs.flatten) ∧
      (r.1.map fun seg => area seg.mesh).sum = surf ∧
      (0 < surf → 0 ≤ r.2 ∧ r.2 ≤ 100 ∧ ((∀ seg ∈ r.1, seg.parent ≠ none) → r.2 = 100)) := by
  have ht : Embedded.tripCount (Grid.numElements n) = Grid.numElements n := by
    unfold Embedded.tripCount
    have : Grid.numElements n % 2 ^ 32 = Grid.numElements n := Nat.mod_eq_of_lt (by omega)
    simp only [this]; split <;> omega
  rw [ht] at hp
  have hord : ∀ d < 3, dom.lower.get d ≤ dom.upper.get d := fun d hd => by
    have := (hw d hd).2
    have h0 : 0 ≤ 20 * zt * (n.get d : K) := by positivity
    linarith
  have hwid : ∀ d < 3, ∀ i < n.get d, gridPlanes n dom d i + 20 * zt < gridPlanes n dom d (i + 1) := fun d hd i hi => by
    obtain ⟨h1, h2⟩ := hw d hd
    have h3 : (0 : K) < n.get d := by exact_mod_cast h1
    have h4 : 20 * zt < (dom.upper.get d - dom.lower.get d) / (n.get d : K) := by rw [lt_div_iff₀ h3]; exact h2
    simp only [gridPlanes, Nat.cast_add, Nat.cast_one]
    linarith
  obtain ⟨g, out, ps, h1, h2, h3, h4, h5, h6⟩ := C105_unique_partial node maxd zt hz m hm hne hn closed ts hv (gridPlanes n dom) n.get hwid hc
    (order.map (Grid.toMat n)) ((hp.map _).trans (cells_perm n))
  refine ⟨g, fun i => out (Grid.toMat n i), h1, fun i hi => ?_, fun area harea => ?_⟩
  · obtain ⟨b1, b2⟩ := box_corners n dom hord i
    rw [b1, b2]
    exact (h2 _ (List.mem_map_of_mem (hp.mem_iff.2 (List.mem_range.2 hi)))).1
  have hvis : ∀ i ∈ order, (out (Grid.toMat n i)).mesh.visit = some (ps (Grid.toMat n i)) := fun i hi => (h2 _ (List.mem_map_of_mem hi)).2.2
  have hch : ∀ i ∈ order, (out (Grid.toMat n i)).mesh.check = true := fun i hi => (h2 _ (List.mem_map_of_mem hi)).2.1
  have har : ∀ i ∈ order, area (out (Grid.toMat n i)) = totalArea norm (ps (Grid.toMat n i)) := fun i hi =>
    harea _ _ (MeshUtil.meshArea_eq norm ⟨hch i hi, hvis i hi⟩)
  obtain ⟨qs, g1, g2, g3, g4, g5⟩ := condition_segments (s := s) hvis area surf
  have hfl : (order.map (Grid.toMat n)).flatMap ps = order.flatMap fun i => ps (Grid.toMat n i) := List.flatMap_map ..
  have htot : (order.map fun i => area (out (Grid.toMat n i))).sum = surf := by
    rw [MeshUtil.meshArea_eq norm ⟨hm, hv⟩, Option.some.injEq] at hsurf
    rw [← hsurf, ← h6 norm hnorm, hfl]
    clear hfl g1 g2 g3 g4 g5 h2 h3 h4 h5 h6 hvis hch hp
    induction order with
    | nil => simp [totalArea]
    | cons i l ih =>
      rw [List.map_cons, List.sum_cons, List.flatMap_cons, har i (by simp), ih fun j hj => har j (by simp [hj])]
      simp [totalArea]
  have hsum := g3 fun i hi he => by rw [har i hi, he]; simp [totalArea]
  rw [htot] at hsum
  refine ⟨⟨qs, g1, by rw [g2, ← hfl]; exact h3⟩, hsum, fun hpos => ?_⟩
  have hne' : surf ≠ 0 := hpos.ne'
  have h100 : surf / surf * 100 = 100 := by rw [div_self hne', one_mul]
  rw [hsum, h100] at g4 g5
  have hseg : ∀ seg ∈ (Embedded.computeCondition s (fun i => out (Grid.toMat n i)) (fun c => c.mesh.triangles.length) area surf order).1, 0 ≤ area seg.mesh := by
    intro seg hm
    have : ∃ i ∈ order, seg.mesh = out (Grid.toMat n i) := by
      simp only [Embedded.computeCondition, Embedded.condFold_eq, List.nil_append, List.mem_filterMap] at hm
      obtain ⟨i, hi, hseg⟩ := hm
      unfold Embedded.segmentOf at hseg
      split at hseg
      · cases hseg; exact ⟨i, hi, rfl⟩
      · cases hseg
    obtain ⟨i, hi, e⟩ := this
    rw [e, har i hi]
    unfold totalArea
    refine List.sum_nonneg fun x hx => ?_
    obtain ⟨t, -, rfl⟩ := List.mem_map.1 hx
    have := (hnorm (triangleArea2 t.p1 t.p2 t.p3)).1
    positivity
  exact ⟨(g5 hseg hpos).1, (g5 hseg hpos).2, g4⟩

/-- C105: a surface that nowhere reaches more than 30 zero tolerances above a lower face of the grid is lost completely: the condition has no segments, and 0
percent are reported. -/
theorem C105_lower_face_lost (node : Node K) (maxd zt : K) (hz : 0 < zt) (m : Mesh K) (hm : m.check = true) (hne : m.triangles ≠ [])
    (hn : m.triangles.length ≤ 2 ^ 30) (closed : Bool) (ts : List (Tri K)) (hv : m.visit = some ts) (n : V3 Nat) (dom : Box K)
    (hw : ∀ d < 3, 0 < n.get d ∧ 2 * zt * (n.get d : K) ≤ dom.upper.get d - dom.lower.get d) (d : Nat) (hd : d < 3)
    (hlow : ∀ t ∈ ts, t.p1.get d ≤ dom.lower.get d + 30 * zt ∧ t.p2.get d ≤ dom.lower.get d + 30 * zt ∧ t.p3.get d ≤ dom.lower.get d + 30 * zt) :
    ∃ (g : Query K) (clip : Nat → ClippedMesh K), Query.new node maxd m closed = .ok g ∧
      (∀ i < Grid.numElements n, clipTriangleMeshUnique zt g (Grid.boxXYZ n dom i).lower (Grid.boxXYZ n dom i).upper = .ok (clip i)) ∧
      ∀ (s : BGrid.State (Embedded.Elem K)) (area : ClippedMesh K → K) (surf : K) (order : List Nat), (∀ i ∈ order, i < Grid.numElements n) →
        Embedded.computeCondition s clip (fun c => c.mesh.triangles.length) area surf order = ([], 0) := by
  obtain ⟨cs, t, e1, -⟩ := new_spec node maxd hm hn closed
  set g : Query K := ⟨m, t, _, _, closed⟩ with hgdef
  have hord : ∀ d < 3, dom.lower.get d ≤ dom.upper.get d := fun d hd => by
    have := (hw d hd).2
    have h0 : 0 ≤ 2 * zt * (n.get d : K) := by positivity
    linarith
  have hstep : ∀ d < 3, 2 * zt ≤ (dom.upper.get d - dom.lower.get d) / (n.get d : K) := fun d hd => by
    obtain ⟨h1, h2⟩ := hw d hd
    have h3 : (0 : K) < n.get d := by exact_mod_cast h1
    rw [le_div_iff₀ h3]; exact h2
  have key : ∀ i, i < Grid.numElements n → ∃ out : ClippedMesh K, clipTriangleMeshUnique zt g (Grid.boxXYZ n dom i).lower (Grid.boxXYZ n dom i).upper = .ok out ∧
      out.mesh.triangles.length = 0 := by
    intro i hi
    obtain ⟨b1, b2⟩ := box_corners n dom hord i
    rw [b1, b2]
    have s0 := hstep 0 (by norm_num)
    have s1 := hstep 1 (by norm_num)
    have s2 := hstep 2 (by norm_num)
    obtain ⟨out, ids, h1, h2, h3, h4, h5⟩ := unique_pieces node maxd zt hz hm hne hn closed e1 (lowerCorner (gridPlanes n dom) (Grid.toMat n i))
      (upperCorner (gridPlanes n dom) (Grid.toMat n i)) _ _ rfl rfl
      (by simp only [lowerCorner, upperCorner, gridPlanes, Nat.cast_add, Nat.cast_one]; linarith)
      (by simp only [lowerCorner, upperCorner, gridPlanes, Nat.cast_add, Nat.cast_one]; linarith)
      (by simp only [lowerCorner, upperCorner, gridPlanes, Nat.cast_add, Nat.cast_one]; linarith)
    refine ⟨out, h1, ?_⟩
    have hids : ids = [] := by
      refine List.eq_nil_iff_forall_not_mem.2 fun j hj => ?_
      obtain ⟨c, hc, q, ⟨u, v, w, hu, hv', hw', hs, hx, hy, hz''⟩, hb⟩ := (h4 j).1 hj
      have hcorn := (visit_spec hv).2 j
      rw [hc] at hcorn
      cases hj' : ts[j]? with
      | none => rw [hj'] at hcorn; simp at hcorn
      | some t =>
        rw [hj'] at hcorn
        simp only [Option.map_some, Option.some.injEq] at hcorn
        subst hcorn
        obtain ⟨l1, l2, l3⟩ := hlow t (List.mem_of_getElem? hj')
        have hq : q.get d ≤ dom.lower.get d + 30 * zt := by
          have e : q.get d = u * t.p1.get d + v * t.p2.get d + w * t.p3.get d := by
            match d, hd with
            | 0, _ => exact hx
            | 1, _ => exact hy
            | 2, _ => exact hz''
          rw [e]
          have e2 : dom.lower.get d + 30 * zt = u * (dom.lower.get d + 30 * zt) + v * (dom.lower.get d + 30 * zt) + w * (dom.lower.get d + 30 * zt) := by
            rw [← add_mul, ← add_mul, hs, one_mul]
          rw [e2]
          exact add_le_add (add_le_add (mul_le_mul_of_nonneg_left l1 hu) (mul_le_mul_of_nonneg_left l2 hv')) (mul_le_mul_of_nonneg_left l3 hw')
        have hpl : ∀ d < 3, ∀ j : Nat, dom.lower.get d ≤ gridPlanes n dom d j := fun d hd j => by
          have := hstep d hd
          have h0 : 0 ≤ (dom.upper.get d - dom.lower.get d) / (n.get d : K) * (j : K) := mul_nonneg (by linarith) (Nat.cast_nonneg j)
          simp only [gridPlanes]; linarith
        obtain ⟨⟨c1, -⟩, ⟨c2, -⟩, ⟨c3, -⟩⟩ := hb
        have p0 := hpl 0 (by norm_num) (Grid.toMat n i).x
        have p1 := hpl 1 (by norm_num) (Grid.toMat n i).y
        have p2 := hpl 2 (by norm_num) (Grid.toMat n i).z
        simp only [lowerCorner] at c1 c2 c3
        match d, hd with
        | 0, _ => simp only [V3.get] at hq p0; linarith
        | 1, _ => simp only [V3.get] at hq p1; linarith
        | 2, _ => simp only [V3.get] at hq p2; linarith
    rw [hids] at h5
    have := (visit_spec h5).1
    simpa using this.symm
  haveI : Nonempty (ClippedMesh K) := ⟨emptyClipped⟩
  choose! clip k1 k2 using key
  refine ⟨g, clip, e1, k1, fun s area surf order ho => ?_⟩
  simp only [Embedded.computeCondition, Embedded.condFold_eq, List.nil_append, zero_add]
  have hseg : order.filterMap (Embedded.segmentOf s clip fun c => c.mesh.triangles.length) = [] := by
    refine List.filterMap_eq_nil_iff.2 fun i hi => ?_
    simp only [Embedded.segmentOf, k2 i (ho i hi), gt_iff_lt, lt_self_iff_false, if_false]
  have hsum : (order.map fun i => if (clip i).mesh.triangles.length > 0 ∧ (s.getElement .all (i + 1)).present then area (clip i) else 0).sum = 0 := by
    refine List.sum_eq_zero fun x hx => ?_
    obtain ⟨i, hi, rfl⟩ := List.mem_map.1 hx
    simp only [k2 i (ho i hi), gt_iff_lt, lt_self_iff_false, false_and, if_false]
  rw [hseg, hsum, zero_div, zero_mul]

/-- C105 is false of the code: a triangle in the lower face of the unit cube, which is divided into 8 cells, is inside the grid, no warning is printed, and none of it is
in a segment. -/
theorem C105_false_of_code : ∃ (m : Mesh ℚ) (ts : List (Tri ℚ)) (n : V3 Nat) (dom : Box ℚ), m.check = true ∧ m.visit = some ts ∧
    surfaceArea2 ts ≠ ⟨0, 0, 0⟩ ∧ (∀ v ∈ m.vertices, InBox dom v) ∧ Embedded.warnsOutside 1 dom.lower dom.upper ⟨⟨0, 0, 0⟩, ⟨0, 1, 1⟩⟩ = false ∧
    ∀ (node : Node ℚ) (maxd zt : ℚ) (closed : Bool), 0 < zt → 4 * zt ≤ 1 →
    ∃ (g : Query ℚ) (clip : Nat → ClippedMesh ℚ), Query.new node maxd m closed = .ok g ∧
      (∀ i < Grid.numElements n, clipTriangleMeshUnique zt g (Grid.boxXYZ n dom i).lower (Grid.boxXYZ n dom i).upper = .ok (clip i)) ∧
      ∀ (s : BGrid.State (Embedded.Elem ℚ)) (area : ClippedMesh ℚ → ℚ) (surf : ℚ) (order : List Nat), order.Perm (List.range (Grid.numElements n)) →
        Embedded.computeCondition s clip (fun c => c.mesh.triangles.length) area surf order = ([], 0) := by
  refine ⟨⟨[⟨0, 0, 0⟩, ⟨0, 1, 0⟩, ⟨0, 0, 1⟩], [⟨0, 1, 2⟩], [⟨1, 0, 0⟩]⟩, [⟨⟨0, 0, 0⟩, ⟨0, 1, 0⟩, ⟨0, 0, 1⟩, ⟨1, 0, 0⟩⟩], ⟨2, 2, 2⟩, ⟨⟨0, 0, 0⟩, ⟨1, 1, 1⟩⟩,
    by decide +kernel, by rfl, ?_, ?_, by decide +kernel, fun node maxd zt closed h0 h1 => ?_⟩
  · intro h
    have := congrArg V3.x h
    norm_num [surfaceArea2, triangleArea2, sumV] at this
  · intro v hv
    simp only [List.mem_cons, List.not_mem_nil, or_false] at hv
    rcases hv with rfl | rfl | rfl <;> norm_num [InBox]
  · obtain ⟨g, clip, g1, g2, g3⟩ := C105_lower_face_lost node maxd zt h0 (⟨[⟨0, 0, 0⟩, ⟨0, 1, 0⟩, ⟨0, 0, 1⟩], [⟨0, 1, 2⟩], [⟨1, 0, 0⟩]⟩ : Mesh ℚ) (by decide +kernel) (by simp)
      (by norm_num) closed [⟨⟨0, 0, 0⟩, ⟨0, 1, 0⟩, ⟨0, 0, 1⟩, ⟨1, 0, 0⟩⟩] (by rfl) ⟨2, 2, 2⟩ ⟨⟨0, 0, 0⟩, ⟨1, 1, 1⟩⟩
      (fun d hd => by interval_cases d <;> refine ⟨by norm_num [V3.get], ?_⟩ <;> norm_num [V3.get] <;> linarith) 0 (by norm_num)
      (fun t ht => by
        simp only [List.mem_singleton] at ht
        subst ht
        simp only [V3.get]
        refine ⟨?_, ?_, ?_⟩ <;> linarith)
    exact ⟨g, clip, g1, g2, fun s area surf order ho => g3 s area surf order fun i hi => List.mem_range.1 (ho.mem_iff.1 hi)⟩

/-! ## A triangle that meets the hypotheses: it is cut by a plane of each of two directions into pieces in three cells -/

set_option maxHeartbeats 2000000 in
theorem clear_example : ClearOfGrid (fun d i => gridPlanes ⟨2, 2, 1⟩ (⟨⟨0, 0, 0⟩, ⟨2, 2, 1⟩⟩ : Box K) d i + 30 * (1 / 1000)) (V3.get ⟨2, 2, 1⟩) (10 * (1 / 1000))
    ⟨1 / 2, 1 / 2, 1 / 2⟩ ⟨7 / 4, 1 / 2, 1 / 2⟩ ⟨1 / 2, 7 / 4, 1 / 2⟩ := by
  have hx : ∀ i ≤ 2, gridPlanes ⟨2, 2, 1⟩ (⟨⟨0, 0, 0⟩, ⟨2, 2, 1⟩⟩ : Box K) 0 i + 30 * (1 / 1000) = i + 3 / 100 := fun i _ => by norm_num [gridPlanes, V3.get]
  have hy : ∀ i ≤ 2, gridPlanes ⟨2, 2, 1⟩ (⟨⟨0, 0, 0⟩, ⟨2, 2, 1⟩⟩ : Box K) 1 i + 30 * (1 / 1000) = i + 3 / 100 := fun i _ => by norm_num [gridPlanes, V3.get]
  have hz : ∀ i ≤ 1, gridPlanes ⟨2, 2, 1⟩ (⟨⟨0, 0, 0⟩, ⟨2, 2, 1⟩⟩ : Box K) 2 i + 30 * (1 / 1000) = i + 3 / 100 := fun i _ => by norm_num [gridPlanes, V3.get]
  refine ⟨fun d hd => ?_, fun d hd i hi h => ?_, fun q hq d hd i hi h1 h2 => ?_⟩
  · interval_cases d <;> norm_num [gridPlanes, V3.get]
  · interval_cases d
    · simp only [V3.get] at h; linarith [h.1, h.2.1]
    · simp only [V3.get] at h; linarith [h.1, h.2.2]
    · have hi' : i ≤ 1 := hi
      obtain ⟨h, -⟩ := h
      rw [hz i hi'] at h
      interval_cases i <;> norm_num [V3.get] at h
  obtain ⟨⟨u, v, w, hu, hv, hw, hs, qx, qy, qz⟩, hk⟩ := hq
  simp only at qx qy qz
  have b1 : 1 / 2 ≤ q.x := by linarith
  have b2 : 1 / 2 ≤ q.y := by linarith
  have b3 : q.x + q.y ≤ 9 / 4 := by linarith
  have b4 : q.z = 1 / 2 := by linarith
  have fx : ∀ i ≤ 2, q.get 0 = gridPlanes ⟨2, 2, 1⟩ (⟨⟨0, 0, 0⟩, ⟨2, 2, 1⟩⟩ : Box K) 0 i + 30 * (1 / 1000) → q.x = 103 / 100 := fun i hi h => by
    rw [hx i hi] at h
    simp only [V3.get] at h
    interval_cases i <;> norm_num at h <;> linarith
  have fy : ∀ i ≤ 2, q.get 1 = gridPlanes ⟨2, 2, 1⟩ (⟨⟨0, 0, 0⟩, ⟨2, 2, 1⟩⟩ : Box K) 1 i + 30 * (1 / 1000) → q.y = 103 / 100 := fun i hi h => by
    rw [hy i hi] at h
    simp only [V3.get] at h
    interval_cases i <;> norm_num at h <;> linarith
  have fz : ∀ i ≤ 1, q.get 2 ≠ gridPlanes ⟨2, 2, 1⟩ (⟨⟨0, 0, 0⟩, ⟨2, 2, 1⟩⟩ : Box K) 2 i + 30 * (1 / 1000) := fun i hi h => by
    rw [hz i hi] at h
    simp only [V3.get] at h
    interval_cases i <;> norm_num at h <;> linarith
  have on : ∀ e < 3, OnGridPlane (fun d i => gridPlanes ⟨2, 2, 1⟩ (⟨⟨0, 0, 0⟩, ⟨2, 2, 1⟩⟩ : Box K) d i + 30 * (1 / 1000)) (V3.get ⟨2, 2, 1⟩) e q →
      (e = 0 ∧ q.x = 103 / 100) ∨ (e = 1 ∧ q.y = 103 / 100) := by
    rintro e he ⟨j, hj, h⟩
    interval_cases e
    · exact Or.inl ⟨rfl, fx j hj h⟩
    · exact Or.inr ⟨rfl, fy j hj h⟩
    · exact absurd h (fz j hj)
  -- every node is a corner, a point of the long edge on one of the planes, or the point on both planes
  have cases : (q.x = 1 / 2 ∨ q.x = 7 / 4 ∨ q.x = 103 / 100 ∨ q.x = 9 / 4 - 103 / 100) ∧ (q.y = 1 / 2 ∨ q.y = 7 / 4 ∨ q.y = 103 / 100 ∨ q.y = 9 / 4 - 103 / 100) := by
    rcases hk with (rfl | rfl | rfl) | ⟨he, e, hlt, ho⟩ | ⟨e, he, e', he', hne, ho, ho'⟩
    · norm_num
    · norm_num
    · norm_num
    · rcases he with ⟨t, -, rfl⟩ | ⟨t, -, rfl⟩ | ⟨t, -, rfl⟩ <;> simp only at * <;> rcases on e hlt ho with ⟨-, h⟩ | ⟨-, h⟩
      · exact ⟨Or.inr (Or.inr (Or.inl h)), Or.inl (by linarith)⟩
      · exfalso; linarith
      · exact ⟨Or.inr (Or.inr (Or.inl h)), Or.inr (Or.inr (Or.inr (by linarith)))⟩
      · exact ⟨Or.inr (Or.inr (Or.inr (by linarith))), Or.inr (Or.inr (Or.inl h))⟩
      · exfalso; linarith
      · exact ⟨Or.inl (by linarith), Or.inr (Or.inr (Or.inl h))⟩
    · rcases on e he ho with ⟨h1, h⟩ | ⟨h1, h⟩ <;> rcases on e' he' ho' with ⟨h2, h'⟩ | ⟨h2, h'⟩
      · omega
      · exact ⟨Or.inr (Or.inr (Or.inl h)), Or.inr (Or.inr (Or.inl h'))⟩
      · exact ⟨Or.inr (Or.inr (Or.inl h')), Or.inr (Or.inr (Or.inl h))⟩
      · omega
  obtain ⟨cx, cy⟩ := cases
  interval_cases d
  · have hi' : i ≤ 2 := hi
    rw [hx i hi'] at h1 h2 ⊢
    simp only [V3.get] at h1 h2 ⊢
    interval_cases i <;> norm_num at h1 h2 ⊢ <;> rcases cx with h | h | h | h <;> linarith
  · have hi' : i ≤ 2 := hi
    rw [hy i hi'] at h1 h2 ⊢
    simp only [V3.get] at h1 h2 ⊢
    interval_cases i <;> norm_num at h1 h2 ⊢ <;> rcases cy with h | h | h | h <;> linarith
  · have hi' : i ≤ 1 := hi
    rw [hz i hi'] at h1 h2 ⊢
    simp only [V3.get] at h1 h2 ⊢
    interval_cases i <;> norm_num at h1 h2 ⊢ <;> linarith

/-- The hypotheses of `C105_condition_partial` hold for this triangle in the grid of 4 cells. -/
example (node : Node ℝ) (maxd : ℝ) (closed : Bool) (s : BGrid.State (Embedded.Elem ℝ)) (order : List Nat) (hp : order.Perm (List.range (Embedded.tripCount 4))) :=
  C105_condition_partial node maxd (1 / 1000) (by norm_num)
    (⟨[⟨1 / 2, 1 / 2, 1 / 2⟩, ⟨7 / 4, 1 / 2, 1 / 2⟩, ⟨1 / 2, 7 / 4, 1 / 2⟩], [⟨0, 1, 2⟩], [⟨0, 0, 1⟩]⟩ : Mesh ℝ) (by rfl) (by simp) (by norm_num) closed
    [⟨⟨1 / 2, 1 / 2, 1 / 2⟩, ⟨7 / 4, 1 / 2, 1 / 2⟩, ⟨1 / 2, 7 / 4, 1 / 2⟩, ⟨0, 0, 1⟩⟩] (by rfl) ⟨2, 2, 1⟩ ⟨⟨0, 0, 0⟩, ⟨2, 2, 1⟩⟩ (by decide)
    (fun d hd => by interval_cases d <;> norm_num [V3.get]) (fun t ht => by rw [List.mem_singleton] at ht; subst ht; exact clear_example) s order hp
    (fun v => Real.sqrt (v.x ^ 2 + v.y ^ 2 + v.z ^ 2)) (fun v => ⟨Real.sqrt_nonneg _, Real.sq_sqrt (by positivity)⟩) _
    (MeshUtil.meshArea_eq _ ⟨by rfl, by rfl⟩)

theorem snap_example : ∀ k ∈ gridCells (V3.get ⟨2, 2, 1⟩), ∀ d < 3,
    (upperCorner (fun d i => gridPlanes ⟨2, 2, 1⟩ (⟨⟨0, 0, 0⟩, ⟨2, 2, 1⟩⟩ : Box K) d i + 30 * (1 / 1000)) k).get d -
      (lowerCorner (fun d i => gridPlanes ⟨2, 2, 1⟩ (⟨⟨0, 0, 0⟩, ⟨2, 2, 1⟩⟩ : Box K) d i + 30 * (1 / 1000)) k).get d = 1 := by
  intro k _ d hd
  interval_cases d <;> simp only [upperCorner, lowerCorner, gridPlanes, V3.get] <;> push_cast <;> ring

/-- The hypotheses of `C105_clip_partial` hold for the same triangle and planes. -/
example (node : Node K) (maxd : K) (closed : Bool) :=
  C105_clip_partial node maxd (1 / 1000) (1 / 1000) (10 * (1 / 1000)) (by norm_num) (by norm_num) le_rfl
    (⟨[⟨1 / 2, 1 / 2, 1 / 2⟩, ⟨7 / 4, 1 / 2, 1 / 2⟩, ⟨1 / 2, 7 / 4, 1 / 2⟩], [⟨0, 1, 2⟩], [⟨0, 0, 1⟩]⟩ : Mesh K) (by rfl) (by simp) (by norm_num) closed
    [⟨⟨1 / 2, 1 / 2, 1 / 2⟩, ⟨7 / 4, 1 / 2, 1 / 2⟩, ⟨1 / 2, 7 / 4, 1 / 2⟩, ⟨0, 0, 1⟩⟩] (by rfl)
    (fun d i => gridPlanes ⟨2, 2, 1⟩ (⟨⟨0, 0, 0⟩, ⟨2, 2, 1⟩⟩ : Box K) d i + 30 * (1 / 1000)) (V3.get ⟨2, 2, 1⟩)
    (fun d hd i _ => by interval_cases d <;> simp only [gridPlanes, V3.get] <;> push_cast <;> norm_num <;> linarith) (fun _ => 1 / 10000)
    (fun k hk => by
      have h0 := snap_example (K := K) k hk 0 (by norm_num)
      have h1 := snap_example (K := K) k hk 1 (by norm_num)
      have h2 := snap_example (K := K) k hk 2 (by norm_num)
      simp only [V3.get] at h0 h1 h2
      rw [h0, h1, h2]; norm_num)
    (fun k hk => ⟨by norm_num, fun d hd => by rw [snap_example k hk d hd]; norm_num⟩)
    (fun t ht => by rw [List.mem_singleton] at ht; subst ht; exact clear_example) _ (List.Perm.refl _)

end QuESo.BRep
