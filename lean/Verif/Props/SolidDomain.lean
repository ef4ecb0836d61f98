import Verif.Spec.SolidDomain
import Verif.Props.TrimmedClosed
import Verif.Props.SolidVolume
import Verif.Props.MeshUtilities
import Verif.Props.EmbeddedModel

/-!
# The trimmed domain of a cell that is cut clearly is found at the first attempt (C107)
-/
namespace QuESo.Domain
open QuESo.AABBTree (Fault Node)
open QuESo.Spec QuESo.Clip QuESo.GQ
variable {K : Type} [Field K] [LinearOrder K] [IsStrictOrderedRing K]

/-- The Euclidean norm measures lengths. -/
theorem isLength_of_norm3 {norm : V3 K → K} (h : IsNorm3 norm) : IsLength norm := by
  refine ⟨fun c v hc => ?_, fun d upper => ?_⟩
  · have := MeshUtil.norm_scale h hc v
    simp only [V3.scale]
    rw [mul_comm c v.x, mul_comm c v.y, mul_comm c v.z, this, mul_comm]
  · obtain ⟨h1, h2⟩ := h (outwardOf d upper)
    have : norm (outwardOf d upper) ^ 2 = 1 := by
      rw [h2]
      rcases d with _ | _ | d <;> cases upper <;> simp [outwardOf]
    exact (pow_left_inj₀ h1 zero_le_one (by norm_num : (2 : Nat) ≠ 0)).1 (by rw [this, one_pow])

omit [IsStrictOrderedRing K] in
theorem length_zero {norm : V3 K → K} (h : IsLength norm) : norm ⟨0, 0, 0⟩ = 0 := by
  have := h.scale 0 ⟨0, 0, 0⟩ le_rfl
  simpa [V3.scale] using this

/-- A triangle with the normal of another one and a multiple of its area vector has a unit normal if the other one has. -/
theorem unit_multiple {norm : V3 K → K} (h : IsLength norm) {s t : Tri K} (hu : UnitNormals norm [s]) (hn : t.normal = s.normal) {k : K} (hk : 0 ≤ k)
    (ha : triangleArea2 t.p1 t.p2 t.p3 = V3.scale k (triangleArea2 s.p1 s.p2 s.p3)) : UnitNormals norm [t] := by
  intro t' ht'
  obtain rfl := List.mem_singleton.1 ht'
  obtain ⟨h1, h2, h3⟩ := hu s (by simp)
  dsimp only
  rw [ha, h.scale k _ hk, hn]
  simp only [V3.scale, mul_assoc, h1, h2, h3, and_self]

omit [LinearOrder K] [IsStrictOrderedRing K] in
theorem unit_iff {norm : V3 K → K} {ts : List (Tri K)} : UnitNormals norm ts ↔ ∀ t ∈ ts, UnitNormals norm [t] :=
  ⟨fun h t ht s hs => by obtain rfl := List.mem_singleton.1 hs; exact h _ ht, fun h t ht => h t ht t (by simp)⟩

theorem unit_divided {norm : V3 K → K} (h : IsLength norm) {t : Tri K} {l : List (Tri K)} (hd : Divided t l) (hu : UnitNormals norm [t]) : UnitNormals norm l := by
  induction hd with
  | whole t => exact hu
  | split t q1 q2 q3 q4 a b c d hq _ _ _ _ ia ib ic id =>
    have key : ∀ q ∈ quarters t, UnitNormals norm [q] := by
      intro q hqm
      refine unit_multiple h hu (k := 1 / 4) ?_ (by norm_num) ?_
      · simp only [quarters, List.mem_cons, List.not_mem_nil, or_false] at hqm
        rcases hqm with rfl | rfl | rfl | rfl <;> rfl
      · rw [MeshUtil.quarters_area t q hqm]
        simp only [V3.scale, V3.mk.injEq]
        refine ⟨?_, ?_, ?_⟩ <;> ring
    rw [hq] at key
    have ja := ia (key q1 (by simp))
    have jb := ib (key q2 (by simp))
    have jc := ic (key q3 (by simp))
    have jd := id (key q4 (by simp))
    intro s hs
    simp only [List.mem_append] at hs
    rcases hs with ((hs | hs) | hs) | hs
    · exact ja s hs
    · exact jb s hs
    · exact jc s hs
    · exact jd s hs

theorem unit_refinement {norm : V3 K → K} (h : IsLength norm) {ts ts' : List (Tri K)} (hr : RefinementOf ts ts') (hu : UnitNormals norm ts) : UnitNormals norm ts' := by
  obtain ⟨parts, hp, rfl⟩ := hr
  induction hp with
  | nil => intro t ht; simp at ht
  | cons hd _ ih =>
    intro s hs
    rw [List.flatten_cons, List.mem_append] at hs
    rcases hs with hs | hs
    · exact unit_divided h hd (unit_iff.1 hu _ (by simp)) s hs
    · exact ih (fun t ht => hu t (by simp [ht])) s hs

/-- The estimate of the quality of a closed surface with unit normals and a volume that is not negative. -/
theorem quality_zero {norm : V3 K → K} (hL : IsLength norm) {eps : K} {m : Mesh K} {ts : List (Tri K)}
    (ht : m.visit = some ts) (hu : UnitNormals norm ts) (hc : SealedSurface ts) (hv : 0 ≤ volume6 ts) : MeshUtil.estimateQuality norm eps m = some 0 := by
  obtain ⟨h1, h2, h3⟩ := MeshUtil.dirTerm_eq hu hc
  have h0 : 0 ≤ volume6 ts / 6 := by positivity
  unfold MeshUtil.estimateQuality
  rw [ht]
  simp only [MeshUtil.sumStep_foldl, zero_add, h1, h2, h3, MeshUtil.areas_eq hu, MeshUtil.closed_area hc, zero_div, length_zero hL, Option.some.injEq]
  have : (volume6 ts / 6 + volume6 ts / 6 + volume6 ts / 6) / 3 = volume6 ts / 6 := by ring
  rw [this, abs_of_nonneg h0]
  simp

/-- No attempt finds a part of the surface: there is no domain. -/
theorem loop_none {D : Type} {trial : V3 K → V3 K → Bool → Except Fault (Option (BRep.Trial K D))} {lo up : V3 K} (h : ∀ switch, trial lo up switch = .ok none)
    (volume minRatio snap : K) (rl ru : Nat → V3 K) (neglect : Bool) : ∀ (fuel iteration : Nat) (err : K) (switch : Bool),
      2 * (15 - iteration) + (if switch then 0 else 1) ≤ fuel → iteration ≤ 15 → (switch = true → iteration < 15) →
      BRep.trimLoop trial volume minRatio snap rl ru neglect fuel iteration ⟨lo, up, none, err, switch⟩ = .ok none := by
  intro fuel
  induction fuel with
  | zero =>
    intro iteration err switch hf hi hs
    cases switch
    · simp at hf
    · have := hs rfl
      simp only [if_true] at hf
      omega
  | succ fuel ih =>
    intro iteration err switch hf hi hs
    rw [BRep.trimLoop]
    by_cases hlt : iteration < 15
    · rw [if_pos hlt]
      dsimp only
      rw [h]
      dsimp only
      cases switch
      · simp only [Bool.false_eq_true, if_false]
        refine ih iteration err true ?_ hi (fun _ => hlt)
        simp only [Bool.false_eq_true, if_false, if_true] at hf ⊢
        omega
      · simp only [if_true]
        refine ih (iteration + 1) err false ?_ (by omega) (by simp)
        simp only [Bool.false_eq_true, if_false, if_true] at hf ⊢
        omega
    · rw [if_neg hlt]
      unfold BRep.conclude
      split <;> rfl

/-- C107: no domain is found for a cell in which nothing is left of the surface, whatever the random numbers are. -/
theorem C107_empty {E : Env K} {g : Query K} {lo up : V3 K} {clipped : ClippedMesh K} (hc : BRep.clipTriangleMesh E.zt E.snaptol g lo up = .ok clipped)
    (he : clipped.mesh.triangles = []) (rl ru : Nat → V3 K) (minRatio : K) (n : Nat) (neglect : Bool) :
    E.getTrimmedDomain g rl ru lo up minRatio n neglect = .ok none := by
  unfold Env.getTrimmedDomain BRep.getTrimmedDomain
  refine loop_none (fun switch => ?_) _ _ _ _ _ _ _ _ _ _ (by norm_num) (by norm_num) (by simp)
  unfold Env.trial
  rw [hc]
  simp [he]

/-- C107: the domain of a cell that is cut clearly.  If what is left of the surface in the cell has unit normals and is closed except along the edges recorded on the
faces, no edge is recorded on two faces, on each face the edges run around a region, the faces agree about the corners, and the solid in the cell has a volume that is
not negative, then the first attempt succeeds, with the given cell and without random numbers: the domain has a closed boundary with unit normals, the reported volume
is its volume, and the domain is kept exactly if its volume is above the given part of the volume of the cell. -/
theorem C107_domain_partial {E : Env K} (hE : E.Sound) (hsort : E.SortsTop) (hL : IsLength E.norm) {node : Node K} {m : Mesh K} (hm : m.check = true)
    (hne : m.triangles ≠ []) (hn : m.triangles.length ≤ 2 ^ 30) {cl : Bool} {g : Query K} (hg : Query.new node E.maxd m cl = .ok g) {lo up : V3 K} {snap : K}
    (hsnap : snap = 1 / 10 * max (max (up.x - lo.x) (max (up.y - lo.y) (up.z - lo.z)) * E.snaptol) E.snaptol) (hzt : 10 * E.zt ≤ snap)
    (hx : 2 * snap ≤ up.x - lo.x) (hy : 2 * snap ≤ up.y - lo.y) (hz : 2 * snap ≤ up.z - lo.z)
    (hmx : up.x - lo.x + 20 * snap ≤ E.maxd) (hmy : up.y - lo.y + 20 * snap ≤ E.maxd) (hmz : up.z - lo.z + 20 * snap ≤ E.maxd)
    (hlx : -E.maxd ≤ lo.x) (hly : -E.maxd ≤ lo.y) (hlz : -E.maxd ≤ lo.z) {clipped : ClippedMesh K}
    (hc : BRep.clipTriangleMesh E.zt E.snaptol g lo up = .ok clipped) (hcne : clipped.mesh.triangles ≠ []) {ts : List (Tri K)}
    (hts : clipped.mesh.visit = some ts) (hu : UnitNormals E.norm ts) (n : Nat)
    (hloose : BothWays (looseEdges clipped)) (hd : ∀ j < 6, ∀ k < 6, j ≠ k → ∀ e ∈ clipped.edges j, e ∉ clipped.edges k)
    {area : Nat × Bool → K} {corner : V3 K → K} (hf : ∀ f ∈ sixFaces, ∀ P es, E.face clipped.mesh lo up false f.1 f.2 = .ok P →
      FaceEdges clipped (2 * f.1 + f.2.toNat) es → P.Bounds es (area f) ∧ P.SealedBounds es corner)
    (hvol : 0 ≤ volume6 ts + (sixFaces.map fun f => 2 * area f * offset lo up f).sum) :
    ∃ closed ts', E.build clipped lo up n false = .ok closed ∧ closed.check = true ∧ closed.visit = some ts' ∧ SealedSurface ts' ∧ UnitNormals E.norm ts' ∧
      volume6 ts' = volume6 ts + (sixFaces.map fun f => 2 * area f * offset lo up f).sum ∧
      MeshUtil.meshVolume E.norm closed = some (volume6 ts' / 6) ∧
      ∀ (rl ru : Nat → V3 K) (minRatio : K) (neglect : Bool), E.getTrimmedDomain g rl ru lo up minRatio n neglect =
        .ok (if minRatio < volume6 ts' / 6 / ((up.x - lo.x) * (up.y - lo.y) * (up.z - lo.z)) then some ⟨clipped, closed⟩ else none) := by
  obtain ⟨closed, ts1, caps, ts', k1, k2, k3, k4, k5, k6, -, k8⟩ := C77_regions hE hsort hm hne hn hg hsnap hzt hx hy hz hmx hmy hmz hlx hly hlz hc hcne n false
    (fun f h P es a b => (hf f h P es a b).1)
  obtain ⟨closed2, _, _, ts2, l1, -, -, l4, -, l6⟩ := C103_sealed hE hsort hm hne hn hg hsnap hzt hx hy hz hmx hmy hmz hlx hly hlz hc hcne n false hloose hd
    (fun f h P es a b => (hf f h P es a b).2)
  rw [hts] at k3
  cases k3
  rw [k1] at l1
  cases l1
  rw [k4] at l4
  cases l4
  have hcaps : UnitNormals E.norm caps.flatten := by
    clear k5 k8
    intro t ht
    obtain ⟨cap, hcap, htc⟩ := List.mem_flatten.1 ht
    obtain ⟨f, hfm, h1, -, h3⟩ : ∃ f ∈ sixFaces, IsCap lo up (10 * E.zt) f cap ∧ surfaceArea2 cap = V3.scale (2 * area f) (outwardOf f.1 f.2) ∧
        ∀ t ∈ cap, ∃ k, 0 ≤ k ∧ triangleArea2 t.p1 t.p2 t.p3 = V3.scale k (outwardOf f.1 f.2) := by
      revert hcap
      clear * - k6
      generalize sixFaces = fs at k6 ⊢
      induction k6 with
      | nil => simp
      | cons h _ ih =>
        intro hc
        rcases List.mem_cons.1 hc with rfl | hc
        · exact ⟨_, by simp, h⟩
        · obtain ⟨f, hf, h⟩ := ih hc
          exact ⟨f, by simp [hf], h⟩
    obtain ⟨k, hk, ha⟩ := h3 t htc
    dsimp only
    rw [ha, hL.scale k _ hk, hL.axis, (h1 t htc).1]
    simp [V3.scale]
  have hun : UnitNormals E.norm ts' := unit_refinement hL k5 (by
    intro t ht
    rcases List.mem_append.1 ht with h | h
    · exact hu t h
    · exact hcaps t h)
  have hv : 0 ≤ volume6 ts' := by rw [k8]; exact hvol
  have hq := quality_zero (eps := E.eps) hL k4 hun l6 hv
  have hmv : MeshUtil.meshVolume E.norm closed = some (volume6 ts' / 6) := by
    rw [MeshUtil.meshVolume_eq ⟨k2, k4⟩ hun, abs_of_nonneg hv]
  refine ⟨closed, ts', k1, k2, k4, l6, hun, k8, hmv, fun rl ru minRatio neglect => ?_⟩
  have hpos : clipped.mesh.triangles.length > 0 := List.length_pos_iff.2 hcne
  unfold Env.getTrimmedDomain BRep.getTrimmedDomain
  dsimp only
  rw [BRep.trimLoop, if_pos (by norm_num)]
  have htrial : E.trial g n lo up false = .ok (some ⟨volume6 ts' / 6, 0, ⟨clipped, closed⟩⟩) := by
    unfold Env.trial
    rw [hc]
    dsimp only
    rw [if_pos hpos, k1]
    dsimp only
    rw [hmv, hq]
  dsimp only
  rw [htrial]
  dsimp only [BRep.examine]
  rw [if_pos (by norm_num)]

/-- The parts of a surface with unit normals have unit normals. -/
theorem unit_makeUp {norm : V3 K → K} (h : IsLength norm) {us ps : List (Tri K)} (hm : MakeUpSurface us ps) (hu : UnitNormals norm us) : UnitNormals norm ps := by
  obtain ⟨parts, h1, h2⟩ := hm
  intro t ht
  have ht := h2.mem_iff.1 ht
  clear h2
  induction h1 with
  | nil => simp at ht
  | cons hs _ ih =>
    rw [List.flatten_cons, List.mem_append] at ht
    rcases ht with ht | ht
    · obtain ⟨k, hk, ha⟩ := hs.oriented t ht
      exact unit_multiple h (unit_iff.1 hu _ (by simp)) (hs.part t ht).1 hk ha t (by simp)
    · exact ih (fun t ht => hu t (by simp [ht])) ht

/-- C107: the domains of all cells.  Let the solid be given by a closed surface with unit normals inside the grid, clear of the planes of the grid, let every cell
decide clearly about every triangle, and let `A d k` be the area of the section of the solid with the face `(d, k)` of the grid.  Then for every cut cell the first attempt
succeeds with the given cell, whatever the random numbers are, the domain is kept exactly if it is larger than the given part of the cell, and the reported volumes
of the domains and those of the cells inside add up to the volume of the solid. -/
theorem C107_solid_partial {E : Env K} (hE : E.Sound) (hsort : E.SortsTop) (hL : IsLength E.norm) {node : Node K} {m : Mesh K} (hm : m.check = true) (hne : m.triangles ≠ [])
    (hn : m.triangles.length ≤ 2 ^ 30) {us : List (Tri K)} (hv : m.visit = some us) (hcl : ClosedSurface us) (hu : UnitNormals E.norm us) {cl : Bool} {g : Query K}
    (hg : Query.new node E.maxd m cl = .ok g)
    (c : Nat → Nat → K) (n : Nat → Nat) (hw : ∀ d < 3, ∀ i < n d, c d i + 20 * E.zt < c d (i + 1))
    (snap : V3 Nat → K) (δ : K) (hδ : 10 * E.zt ≤ δ)
    (hsnap : ∀ k ∈ gridCells n, snap k = 1 / 10 * max (max ((upperCorner c k).x - (lowerCorner c k).x) (max ((upperCorner c k).y - (lowerCorner c k).y)
      ((upperCorner c k).z - (lowerCorner c k).z)) * E.snaptol) E.snaptol)
    (hsm : ∀ k ∈ gridCells n, 10 * E.zt ≤ snap k ∧ 9 * snap k ≤ δ ∧ ∀ d < 3,
      2 * snap k ≤ (upperCorner c k).get d - (lowerCorner c k).get d ∧
      (upperCorner c k).get d - (lowerCorner c k).get d + 20 * snap k ≤ E.maxd ∧ -E.maxd ≤ (lowerCorner c k).get d)
    (hc : ∀ t ∈ us, ClearOfGrid c n δ t.p1 t.p2 t.p3)
    (hdec : ∀ k ∈ gridCells n, ∀ t ∈ us, Decided E.zt (snap k) (lowerCorner c k) (upperCorner c k) t)
    (A : Nat → V3 Nat → K) (hout : ∀ d < 3, ∀ k : V3 Nat, k.get d = 0 ∨ k.get d = n d → A d k = 0)
    (inside : V3 Nat → Prop) (corner : V3 K → K) (minTri : Nat) (clipped : V3 Nat → ClippedMesh K)
    (hclip : ∀ k ∈ gridCells n, BRep.clipTriangleMesh E.zt E.snaptol g (lowerCorner c k) (upperCorner c k) = .ok (clipped k))
    (hone : ∀ k ∈ gridCells n, ∀ i < 6, ∀ j < 6, i ≠ j → ∀ e ∈ (clipped k).edges i, e ∉ (clipped k).edges j)
    (hcut : ∀ k ∈ gridCells n, (clipped k).mesh.triangles ≠ [] → ∀ f ∈ sixFaces, ∀ P es,
      E.face (clipped k).mesh (lowerCorner c k) (upperCorner c k) false f.1 f.2 = .ok P →
      FaceEdges (clipped k) (2 * f.1 + f.2.toNat) es → P.Bounds es (A f.1 (faceCell f k)) ∧ P.SealedBounds es corner)
    (hpos : ∀ k ∈ gridCells n, (clipped k).mesh.triangles ≠ [] → ∀ ts, (clipped k).mesh.visit = some ts →
      0 ≤ volume6 ts + (sixFaces.map fun f => 2 * A f.1 (faceCell f k) * offset (lowerCorner c k) (upperCorner c k) f).sum)
    (hin : ∀ k ∈ gridCells n, (clipped k).mesh.triangles = [] → inside k → ∀ f ∈ sixFaces, A f.1 (faceCell f k) = faceArea c k f.1)
    (hno : ∀ k ∈ gridCells n, (clipped k).mesh.triangles = [] → ¬ inside k → ∀ f ∈ sixFaces, A f.1 (faceCell f k) = 0) :
    ∃ vol : V3 Nat → K, (∀ k ∈ gridCells n, 0 ≤ vol k ∧
        ((clipped k).mesh.triangles ≠ [] → ∃ closed ts, closed.visit = some ts ∧ SealedSurface ts ∧ UnitNormals E.norm ts ∧ vol k = volume6 ts / 6 ∧
          MeshUtil.meshVolume E.norm closed = some (vol k) ∧ ∀ (rl ru : Nat → V3 K) (minRatio : K) (neglect : Bool),
            E.getTrimmedDomain g rl ru (lowerCorner c k) (upperCorner c k) minRatio minTri neglect =
              .ok (if minRatio < vol k / cellVolume c k then some ⟨clipped k, closed⟩ else none)) ∧
        ((clipped k).mesh.triangles = [] → inside k → vol k = cellVolume c k) ∧
        ((clipped k).mesh.triangles = [] → ¬ inside k → vol k = 0)) ∧
      ((gridCells n).map vol).sum = volume6 us / 6 := by
  obtain ⟨vol, w1, w2⟩ := C106_volume_partial hE hsort hm hne hn hv hg c n hw snap δ hδ hsnap hsm hc A hout inside minTri (fun _ => false) clipped hclip
    (fun k hk ht f hf P es a b => (hcut k hk ht f hf P es a b).1) hin hno
  obtain ⟨g', out, ps, h1, h2, h3, -⟩ := BRep.C105_clip_partial node E.maxd E.zt E.snaptol δ hE.zt_pos.le hE.snaptol_pos hδ m hm hne hn cl us hv c n hw snap hsnap
    (fun k hk => ⟨(hsm k hk).2.1, fun d hd => ((hsm k hk).2.2 d hd).1⟩) hc _ (List.Perm.refl _)
  rw [hg] at h1
  cases h1
  have hups := unit_makeUp hL h3 hu
  refine ⟨vol, fun k hk => ?_, w2⟩
  obtain ⟨v1, v2, v3⟩ := w1 k hk
  obtain ⟨s1, -, s3⟩ := hsm k hk
  have sx := s3 0 (by norm_num)
  have sy := s3 1 (by norm_num)
  have sz := s3 2 (by norm_num)
  simp only [V3.get] at sx sy sz
  have hzt := hE.zt_pos
  by_cases ht : (clipped k).mesh.triangles = []
  · refine ⟨?_, fun h => absurd ht h, v2, v3⟩
    by_cases hi : inside k
    · rw [v2 ht hi]
      unfold cellVolume
      exact mul_nonneg (mul_nonneg (by linarith) (by linarith)) (by linarith)
    · rw [v3 ht hi]
  · obtain ⟨closed, ts, b1, b2, b3, b4⟩ := v1 ht
    obtain ⟨a1, -, a3⟩ := h2 k hk
    rw [hclip k hk] at a1
    rw [← Except.ok.inj a1] at a3
    obtain ⟨g'', out'', e1, e2, e3, -⟩ := BRep.C101_closed_partial node E.maxd E.zt E.snaptol (snap k) hE.zt_pos.le hE.snaptol_pos m hm hne hn cl _ _ (hsnap k hk) sx.1 sy.1 sz.1 us hv
      hcl (hdec k hk)
    rw [hg] at e1
    cases e1
    rw [hclip k hk] at e2
    cases e2
    obtain ⟨closed', ts', d1, -, d3, d4, d5, d6, d7, d8⟩ := C107_domain_partial hE hsort hL hm hne hn hg (hsnap k hk) s1 sx.1 sy.1 sz.1 sx.2.1 sy.2.1 sz.2.1 sx.2.2 sy.2.2 sz.2.2
      (hclip k hk) ht a3 (fun t h => hups t (List.mem_flatMap.2 ⟨k, hk, h⟩)) minTri e3 (hone k hk) (area := fun f => A f.1 (faceCell f k)) (hcut k hk ht) (hpos k hk ht _ a3)
    rw [b1] at d1
    cases d1
    rw [b3] at d3
    cases d3
    have h0 : 0 ≤ vol k := by
      rw [b4, d6]
      exact div_nonneg (hpos k hk ht _ a3) (by norm_num)
    rw [← b4] at d7 d8
    exact ⟨h0, fun _ => ⟨closed, ts, b3, d4, d5, b4, d7, d8⟩, fun h => absurd h ht, fun h => absurd h ht⟩

omit [IsStrictOrderedRing K] in
theorem getD_physical {o : Option (BGrid.Kind × Embedded.Elem K)} {e : BGrid.Kind × Embedded.Elem K} (h : o = some e) :
    (o.map fun e => physicalWeight e.2).getD 0 = physicalWeight e.2 := by rw [h]; rfl

theorem abs_sum_sub_le {α : Type} (l : List α) (f h b : α → K) (H : ∀ a ∈ l, |f a - h a| ≤ b a) : |(l.map f).sum - (l.map h).sum| ≤ (l.map b).sum := by
  induction l with
  | nil => simp
  | cons a l ih =>
    have h1 := H a (by simp)
    have h2 := ih fun x hx => H x (by simp [hx])
    simp only [List.map_cons, List.sum_cons]
    rw [abs_le] at h1 h2 ⊢
    constructor <;> linarith [h1.1, h1.2, h2.1, h2.2]

/-- C107: the reported volume.  Let the solid be as in `C107_solid_partial`, let the cells be classified as cut, inside and outside, let the points of an inside cell stand for
the volume of the cell, let a cut cell without domain get no points, and let the points of every other cut cell stand for the volume of the domain up to
`err`.  Then, under every schedule and for all random numbers, the reported volume is the volume of the solid up to the errors of the
cells with a domain and the given part of the volume of the cells without one, and the reported percentage is 100 up to the corresponding error. -/
theorem C107_represented_partial {E : Env K} (hE : E.Sound) (hsort : E.SortsTop) (hL : IsLength E.norm) {node : Node K} {m : Mesh K} (hm : m.check = true) (hne : m.triangles ≠ [])
    (hn : m.triangles.length ≤ 2 ^ 30) {us : List (Tri K)} (hv : m.visit = some us) (hcl : ClosedSurface us) (hu : UnitNormals E.norm us) {cl : Bool} {g : Query K}
    (hg : Query.new node E.maxd m cl = .ok g) (n : V3 Nat) (dom : Box K) (hord : ∀ d < 3, dom.lower.get d ≤ dom.upper.get d)
    {c : Nat → Nat → K} (hplanes : c = gridPlanes n dom) (hw : ∀ d < 3, ∀ i < n.get d, c d i + 20 * E.zt < c d (i + 1))
    (snap : V3 Nat → K) (δ : K) (hδ : 10 * E.zt ≤ δ)
    (hsnap : ∀ k ∈ gridCells n.get, snap k = 1 / 10 * max (max ((upperCorner c k).x - (lowerCorner c k).x) (max ((upperCorner c k).y - (lowerCorner c k).y)
      ((upperCorner c k).z - (lowerCorner c k).z)) * E.snaptol) E.snaptol)
    (hsm : ∀ k ∈ gridCells n.get, 10 * E.zt ≤ snap k ∧ 9 * snap k ≤ δ ∧ ∀ d < 3,
      2 * snap k ≤ (upperCorner c k).get d - (lowerCorner c k).get d ∧
      (upperCorner c k).get d - (lowerCorner c k).get d + 20 * snap k ≤ E.maxd ∧ -E.maxd ≤ (lowerCorner c k).get d)
    (hc : ∀ t ∈ us, ClearOfGrid c n.get δ t.p1 t.p2 t.p3)
    (hdec : ∀ k ∈ gridCells n.get, ∀ t ∈ us, Decided E.zt (snap k) (lowerCorner c k) (upperCorner c k) t)
    (A : Nat → V3 Nat → K) (hout : ∀ d < 3, ∀ k : V3 Nat, k.get d = 0 ∨ k.get d = n.get d → A d k = 0)
    (inside : V3 Nat → Prop) (corner : V3 K → K) (minTri : Nat) (clipped : V3 Nat → ClippedMesh K)
    (hclip : ∀ k ∈ gridCells n.get, BRep.clipTriangleMesh E.zt E.snaptol g (lowerCorner c k) (upperCorner c k) = .ok (clipped k))
    (hone : ∀ k ∈ gridCells n.get, ∀ i < 6, ∀ j < 6, i ≠ j → ∀ e ∈ (clipped k).edges i, e ∉ (clipped k).edges j)
    (hcut : ∀ k ∈ gridCells n.get, (clipped k).mesh.triangles ≠ [] → ∀ f ∈ sixFaces, ∀ P es,
      E.face (clipped k).mesh (lowerCorner c k) (upperCorner c k) false f.1 f.2 = .ok P →
      FaceEdges (clipped k) (2 * f.1 + f.2.toNat) es → P.Bounds es (A f.1 (faceCell f k)) ∧ P.SealedBounds es corner)
    (hpos : ∀ k ∈ gridCells n.get, (clipped k).mesh.triangles ≠ [] → ∀ ts, (clipped k).mesh.visit = some ts →
      0 ≤ volume6 ts + (sixFaces.map fun f => 2 * A f.1 (faceCell f k) * offset (lowerCorner c k) (upperCorner c k) f).sum)
    (hin : ∀ k ∈ gridCells n.get, (clipped k).mesh.triangles = [] → inside k → ∀ f ∈ sixFaces, A f.1 (faceCell f k) = faceArea c k f.1)
    (hno : ∀ k ∈ gridCells n.get, (clipped k).mesh.triangles = [] → ¬ inside k → ∀ f ∈ sixFaces, A f.1 (faceCell f k) = 0)
    (debug : Bool) (inp : Embedded.VolumeInput K) (hlen : inp.classes.length = Grid.numElements n) (hN : Grid.numElements n < 2 ^ 31)
    (order : List Nat) (hp : order.Perm (Embedded.scheduled inp))
    (ctrim : ∀ i < Grid.numElements n, (clipped (Grid.toMat n i)).mesh.triangles ≠ [] → inp.classes[i]? = some .trimmed)
    (cin : ∀ i < Grid.numElements n, (clipped (Grid.toMat n i)).mesh.triangles = [] → inside (Grid.toMat n i) → inp.classes[i]? = some .inside)
    (cno : ∀ i < Grid.numElements n, (clipped (Grid.toMat n i)).mesh.triangles = [] → ¬ inside (Grid.toMat n i) → inp.classes[i]? = some .outside)
    (hfull : ∀ i < Grid.numElements n, inp.classes[i]? = some .inside → ∀ e, wantedElement inp i = some e → physicalWeight e.2 = cellVolume c (Grid.toMat n i))
    (rl ru : Nat → Nat → V3 K) (minRatio : K) (neglect : Bool) (err : Nat → K)
    (hnone : ∀ i < Grid.numElements n, inp.classes[i]? = some .trimmed →
      E.getTrimmedDomain g (rl i) (ru i) (Grid.boxXYZ n dom i).lower (Grid.boxXYZ n dom i).upper minRatio minTri neglect = .ok none → inp.trimmedPts i = none)
    (hsome : ∀ i < Grid.numElements n, inp.classes[i]? = some .trimmed → ∀ t v,
      E.getTrimmedDomain g (rl i) (ru i) (Grid.boxXYZ n dom i).lower (Grid.boxXYZ n dom i).upper minRatio minTri neglect = .ok (some t) →
      MeshUtil.meshVolume E.norm t.closed = some v → ∃ pts, inp.trimmedPts i = some pts ∧ |physicalWeight ⟨inp.bounds i, pts⟩ - v| ≤ err i)
    (hvol : MeshUtil.meshVolume E.norm m = some inp.volume) :
    ∃ s info, Embedded.computeVolume debug inp order {} = some (s, info) ∧
      let bound := ((List.range (Grid.numElements n)).map fun i => if inp.classes[i]? = some .trimmed then
        cellError (E.getTrimmedDomain g (rl i) (ru i) (Grid.boxXYZ n dom i).lower (Grid.boxXYZ n dom i).upper minRatio minTri neglect) (err i)
          (minRatio * cellVolume c (Grid.toMat n i)) else 0).sum
      inp.volume = volume6 us / 6 ∧ |info.represented - volume6 us / 6| ≤ bound ∧
        (0 < inp.volume → |info.percentage - 100| ≤ 100 * bound / inp.volume) := by
  obtain ⟨vol, w1, w2⟩ := C107_solid_partial hE hsort hL hm hne hn hv hcl hu hg c n.get hw snap δ hδ hsnap hsm hc hdec A hout inside corner minTri clipped hclip hone hcut hpos hin hno
  obtain ⟨s, info, q1, q2, -, q4, -⟩ := Props.C69_represented_volume debug inp (by rw [hlen]; exact hN) order hp
  have hperm := BRep.cells_perm n
  have hmem : ∀ i < Grid.numElements n, Grid.toMat n i ∈ gridCells n.get := fun i hi =>
    hperm.mem_iff.1 (List.mem_map.2 ⟨i, List.mem_range.2 hi, rfl⟩)
  have hsum : ((List.range (Grid.numElements n)).map fun i => vol (Grid.toMat n i)).sum = volume6 us / 6 := by
    rw [← w2, ← (hperm.map vol).sum_eq, List.map_map]; rfl
  have h0 : 0 ≤ volume6 us / 6 := by
    rw [← hsum]
    refine List.sum_nonneg fun x hx => ?_
    obtain ⟨i, hi, rfl⟩ := List.mem_map.1 hx
    exact (w1 _ (hmem i (List.mem_range.1 hi))).1
  have hv6 : inp.volume = volume6 us / 6 := by
    rw [MeshUtil.meshVolume_eq ⟨hm, hv⟩ hu, Option.some.injEq] at hvol
    rw [← hvol, abs_of_nonneg (by linarith)]
  have hcell : ∀ k ∈ gridCells n.get, 0 < cellVolume c k := fun k hk => by
    obtain ⟨s1, -, s3⟩ := hsm k hk
    have sx := s3 0 (by norm_num)
    have sy := s3 1 (by norm_num)
    have sz := s3 2 (by norm_num)
    simp only [V3.get] at sx sy sz
    have := hE.zt_pos
    unfold cellVolume
    exact mul_pos (mul_pos (by linarith) (by linarith)) (by linarith)
  refine ⟨s, info, q1, ?_⟩
  intro bound
  have hb : |info.represented - volume6 us / 6| ≤ bound := by
    rw [q2, ← hsum]
    unfold cellSum
    rw [hlen]
    refine abs_sum_sub_le _ _ _ _ fun i hi => ?_
    have hi := List.mem_range.1 hi
    have hk := hmem i hi
    obtain ⟨v0, v1, v2, v3⟩ := w1 _ hk
    by_cases ht : (clipped (Grid.toMat n i)).mesh.triangles = []
    · by_cases hins : inside (Grid.toMat n i)
      · have hcls := cin i hi ht hins
        have hwant : ∃ e, wantedElement inp i = some e := by
          unfold wantedElement
          rw [hcls]
          exact ⟨_, rfl⟩
        obtain ⟨e, he⟩ := hwant
        rw [getD_physical he, hfull i hi hcls e he, v2 ht hins, hcls]
        simp
      · have hcls := cno i hi ht hins
        have he : wantedElement inp i = none := by unfold wantedElement; rw [hcls]
        rw [he, v3 ht hins, hcls]
        simp
    · have hcls := ctrim i hi ht
      obtain ⟨closed, ts, -, -, -, -, d5, d6⟩ := v1 ht
      have d6 := d6 (rl i) (ru i) minRatio neglect
      have hbox := BRep.box_corners n dom hord i
      rw [← hplanes] at hbox
      rw [← hbox.1, ← hbox.2] at d6
      rw [if_pos hcls]
      by_cases hlt : minRatio < vol (Grid.toMat n i) / cellVolume c (Grid.toMat n i)
      · rw [if_pos hlt] at d6
        obtain ⟨pts, p1, p2⟩ := hsome i hi hcls _ _ d6 d5
        rw [d6]
        dsimp only [cellError]
        have : ((wantedElement inp i).map fun e => physicalWeight e.2).getD 0 = physicalWeight ⟨inp.bounds i, pts⟩ := by
          unfold wantedElement
          rw [hcls, p1]
          cases pts <;> rfl
        rw [this]
        exact p2
      · rw [if_neg hlt] at d6
        have p1 := hnone i hi hcls d6
        rw [d6]
        dsimp only [cellError]
        have : ((wantedElement inp i).map fun e => physicalWeight e.2).getD 0 = 0 := by
          unfold wantedElement
          rw [hcls, p1]
          rfl
        rw [this, zero_sub, abs_neg, abs_of_nonneg v0]
        exact (div_le_iff₀ (hcell _ hk)).1 (not_lt.1 hlt)
  refine ⟨hv6, hb, fun hvp => ?_⟩
  have hper := q4 hvp.ne'
  rw [← q2] at hper
  have : info.percentage - 100 = 100 * (info.represented - volume6 us / 6) / inp.volume := by
    rw [eq_div_iff hvp.ne', sub_mul, hper, ← hv6]; ring
  rw [this, abs_div, abs_mul, abs_of_pos hvp, abs_of_pos (by norm_num : (0 : K) < 100)]
  exact div_le_div_of_nonneg_right (mul_le_mul_of_nonneg_left hb (by norm_num)) hvp.le

/-! ### Example: the pyramid in two cells -/

/-- The largest component as length. -/
def exEnvM : Env ℚ := { exEnvP with norm := fun v => max |v.x| (max |v.y| |v.z|) }

theorem exEnvM_sound : exEnvM.Sound :=
  ⟨exEnvT_sound.zt_pos, exEnvT_sound.snaptol_pos, exEnvT_sound.bal, exEnvT_sound.sortE, exEnvT_sound.sortP, exEnvT_sound.sortP_sorted⟩

theorem exEnvM_sortsTop : exEnvM.SortsTop := exEnvT_sortsTop

theorem exEnvM_length : IsLength exEnvM.norm := by
  refine ⟨fun c v hc => ?_, fun d upper => ?_⟩
  · simp only [exEnvM, V3.scale, abs_mul, abs_of_nonneg hc, mul_max_of_nonneg _ _ hc]
  · rcases d with _ | _ | d <;> cases upper <;> simp [exEnvM, outwardOf]

theorem exSquare_sealed (upper : Bool) : (exFaceP (exLo upper) (exUpP upper) 1 2 0 upper).SealedBounds (exSquare upper) fun _ => 0 := by
  obtain ⟨hg, -⟩ := exSquare_bounds upper
  have hst : ∀ n : Plane.P2 ℚ, n = ⟨0, 1⟩ → (exFaceP (exLo upper) (exUpP upper) 1 2 0 upper).Steep [(⟨3 / 8, 5 / 8⟩, ⟨5 / 8, 5 / 8⟩)] [(⟨3 / 8, 3 / 8⟩, ⟨5 / 8, 3 / 8⟩)] n := by
    rintro n rfl
    refine ⟨by cases upper <;> decide +kernel, fun e he f hf x _ y _ _ _ _ _ _ => ?_⟩
    simp only [List.mem_singleton] at he hf
    subst he hf
    have h1 : Plane.heightOver ((⟨3 / 8, 5 / 8⟩, ⟨5 / 8, 5 / 8⟩) : Plane.P2 ℚ × Plane.P2 ℚ) ((x + y) / 2) = 5 / 8 := by simp [Plane.heightOver]
    have h2 : Plane.heightOver ((⟨3 / 8, 3 / 8⟩, ⟨5 / 8, 3 / 8⟩) : Plane.P2 ℚ × Plane.P2 ℚ) ((x + y) / 2) = 3 / 8 := by simp [Plane.heightOver]
    rw [h1, h2]
    cases upper <;> decide +kernel
  refine ⟨hg, fun e he => runs_of ?_, ?_, [], [(0, true), (1, false)], [], [(⟨3 / 8, 5 / 8⟩, ⟨5 / 8, 5 / 8⟩)], [(⟨3 / 8, 3 / 8⟩, ⟨5 / 8, 3 / 8⟩)], ?_, ?_, ?_, ?_, ?_, ?_, ?_, ?_, ?_, ?_, ?_⟩
  · revert e; cases upper <;> decide +kernel
  · cases upper <;> decide +kernel
  · cases upper <;> exact ⟨by decide +kernel, by decide +kernel, by decide +kernel⟩
  · cases upper <;>
      refine ⟨fun h => absurd ⟨by decide +kernel, by decide +kernel, rfl⟩ h, fun _ => ⟨5 / 8, ⟨by decide +kernel, ?_, Or.inr ⟨⟨3 / 8, 5 / 8⟩, Or.inl (by decide +kernel), rfl⟩⟩,
        by decide +kernel⟩⟩ <;> rintro p (hp | hp) <;> revert p <;> decide +kernel
  · cases upper <;> decide +kernel
  · cases upper <;> decide +kernel
  · exact section_pair _ (by cases upper <;> decide +kernel) (by cases upper <;> decide +kernel) (by cases upper <;> decide +kernel) (by cases upper <;> decide +kernel)
      (by cases upper <;> decide +kernel) (by cases upper <;> decide +kernel)
  · intro e he
    refine hst _ ?_
    revert e
    cases upper <;> decide +kernel
  · exact hst _ rfl
  · intro x h1 h2
    cases upper <;> norm_num [Plane.Params.degree, Plane.isAt, Plane.Params.proj, exSquare, exFaceP, exLo, exUpP, V3.get, Plane.Params.turn]
  · cases upper <;> decide +kernel
  · cases upper <;> decide +kernel
  · cases upper <;> decide +kernel

theorem exNothing_sealed (lo up : V3 ℚ) (d1 d2 d3 : Nat) (upper : Bool)
    (h : (lo, up, d1, d2, d3, upper) ∈ ([(⟨0, 0, 0⟩, ⟨1, 1, 1⟩, 1, 2, 0, false), (⟨0, 0, 0⟩, ⟨1, 1, 1⟩, 2, 0, 1, false), (⟨0, 0, 0⟩, ⟨1, 1, 1⟩, 2, 0, 1, true),
      (⟨0, 0, 0⟩, ⟨1, 1, 1⟩, 0, 1, 2, false), (⟨0, 0, 0⟩, ⟨1, 1, 1⟩, 0, 1, 2, true),
      (⟨1, 0, 0⟩, ⟨2, 1, 1⟩, 1, 2, 0, true), (⟨1, 0, 0⟩, ⟨2, 1, 1⟩, 2, 0, 1, false), (⟨1, 0, 0⟩, ⟨2, 1, 1⟩, 2, 0, 1, true),
      (⟨1, 0, 0⟩, ⟨2, 1, 1⟩, 0, 1, 2, false), (⟨1, 0, 0⟩, ⟨2, 1, 1⟩, 0, 1, 2, true)] : List (V3 ℚ × V3 ℚ × Nat × Nat × Nat × Bool))) :
    (exFaceP lo up d1 d2 d3 upper).SealedBounds [] fun _ => 0 := by
  obtain ⟨hg, -⟩ := exNothing_bounds lo up d1 d2 d3 upper h
  have key : ∀ vs : List (ℚ × Bool), vs = [(lo.get d1, true), (up.get d1, false)] → (exFaceP lo up d1 d2 d3 upper).SealedBounds [] fun _ => 0 := by
    intro vs hvs
    simp only [List.mem_cons, List.not_mem_nil, or_false, Prod.mk.injEq] at h
    refine ⟨hg, by simp, by simp [Plane.Params.points], [], vs, [], [], [], ?_, ?_, ?_, ?_, section_nil _, ?_, ?_, ?_, ?_, ?_, ?_⟩
    · rcases h with ⟨rfl, rfl, rfl, rfl, rfl, rfl⟩ | ⟨rfl, rfl, rfl, rfl, rfl, rfl⟩ | ⟨rfl, rfl, rfl, rfl, rfl, rfl⟩ | ⟨rfl, rfl, rfl, rfl, rfl, rfl⟩ |
        ⟨rfl, rfl, rfl, rfl, rfl, rfl⟩ | ⟨rfl, rfl, rfl, rfl, rfl, rfl⟩ | ⟨rfl, rfl, rfl, rfl, rfl, rfl⟩ | ⟨rfl, rfl, rfl, rfl, rfl, rfl⟩ | ⟨rfl, rfl, rfl, rfl, rfl, rfl⟩ |
        ⟨rfl, rfl, rfl, rfl, rfl, rfl⟩ <;> exact ⟨by decide +kernel, by subst hvs; decide +kernel, by subst hvs; decide +kernel⟩
    · rcases h with ⟨rfl, rfl, rfl, rfl, rfl, rfl⟩ | ⟨rfl, rfl, rfl, rfl, rfl, rfl⟩ | ⟨rfl, rfl, rfl, rfl, rfl, rfl⟩ | ⟨rfl, rfl, rfl, rfl, rfl, rfl⟩ |
        ⟨rfl, rfl, rfl, rfl, rfl, rfl⟩ | ⟨rfl, rfl, rfl, rfl, rfl, rfl⟩ | ⟨rfl, rfl, rfl, rfl, rfl, rfl⟩ | ⟨rfl, rfl, rfl, rfl, rfl, rfl⟩ | ⟨rfl, rfl, rfl, rfl, rfl, rfl⟩ |
        ⟨rfl, rfl, rfl, rfl, rfl, rfl⟩ <;>
      refine ⟨fun h => absurd ⟨by decide +kernel, by decide +kernel, rfl⟩ h, fun _ => ⟨_, ⟨le_rfl, ?_, Or.inl rfl⟩, rfl⟩⟩ <;>
      (rintro p (hp | hp) <;> revert p <;> decide +kernel)
    · rfl
    · rfl
    · exact fun e he => absurd he (by simp [Plane.Params.ofOrient])
    · refine ⟨?_, fun _ _ _ hf => absurd hf (by simp)⟩
      rcases h with ⟨rfl, rfl, rfl, rfl, rfl, rfl⟩ | ⟨rfl, rfl, rfl, rfl, rfl, rfl⟩ | ⟨rfl, rfl, rfl, rfl, rfl, rfl⟩ | ⟨rfl, rfl, rfl, rfl, rfl, rfl⟩ |
        ⟨rfl, rfl, rfl, rfl, rfl, rfl⟩ | ⟨rfl, rfl, rfl, rfl, rfl, rfl⟩ | ⟨rfl, rfl, rfl, rfl, rfl, rfl⟩ | ⟨rfl, rfl, rfl, rfl, rfl, rfl⟩ | ⟨rfl, rfl, rfl, rfl, rfl, rfl⟩ |
        ⟨rfl, rfl, rfl, rfl, rfl, rfl⟩ <;> decide +kernel
    · intro x _ _; simp [Plane.Params.degree]
    · simp
    · simp
    · simp
  exact key _ rfl

theorem clear_congr {c c' : Nat → Nat → K} {n : Nat → Nat} {δ : K} {p1 p2 p3 : V3 K} (h : ∀ d < 3, ∀ i ≤ n d, c d i = c' d i) (hc : ClearOfGrid c n δ p1 p2 p3) :
    ClearOfGrid c' n δ p1 p2 p3 := by
  have on : ∀ d < 3, ∀ q, OnGridPlane c' n d q → OnGridPlane c n d q := by
    rintro d hd q ⟨i, hi, hq⟩
    exact ⟨i, hi, by rw [h d hd i hi, hq]⟩
  refine ⟨fun d hd => ?_, fun d hd i hi => ?_, fun q hq d hd i hi g1 g2 => ?_⟩
  · rw [← h d hd 0 (Nat.zero_le _), ← h d hd (n d) le_rfl]; exact hc.inside d hd
  · rw [← h d hd i hi]; exact hc.notIn d hd i hi
  · rw [← h d hd i hi] at g1 g2 ⊢
    refine hc.clear q ⟨hq.1, ?_⟩ d hd i hi g1 g2
    rcases hq.2 with h1 | ⟨h1, e, he, h2⟩ | ⟨e, he, e', he', hne, h1, h2⟩
    · exact Or.inl h1
    · exact Or.inr (Or.inl ⟨h1, e, he, on e he q h2⟩)
    · exact Or.inr (Or.inr ⟨e, he, e', he', hne, on e he q h1, on e' he' q h2⟩)

/-- The cells of the example. -/
def exCellsP : V3 Nat := ⟨2, 1, 1⟩
/-- The domain of the example. -/
def exDomP : Box ℚ := ⟨⟨0, 0, 0⟩, ⟨2, 1, 1⟩⟩

theorem exPyramid_decided {snap : ℚ} (hs : snap ≤ 1 / 10) : ∀ t ∈ exPyramid.visit.getD [],
    Decided exEnvM.zt snap ⟨0, 0, 0⟩ ⟨1, 1, 1⟩ t ∧ Decided exEnvM.zt snap ⟨1, 0, 0⟩ ⟨2, 1, 1⟩ t := by
  have hz : 10 * exEnvM.zt ≤ 1 / 10 := by decide +kernel
  have h1 : ∀ t ∈ exPyramid.visit.getD [], t.p1.x = 1 / 2 ∧ (1 / 4 ≤ t.p1.y ∧ t.p1.y ≤ 3 / 4) ∧ (1 / 4 ≤ t.p1.z ∧ t.p1.z ≤ 3 / 4) := by decide +kernel
  have h2 : ∀ t ∈ exPyramid.visit.getD [], t.p3 = ⟨3 / 2, 1 / 2, 1 / 2⟩ ∨ (t.p1.x = 1 / 2 ∧ t.p2.x = 1 / 2 ∧ t.p3.x = 1 / 2) := by decide +kernel
  intro t ht
  obtain ⟨a, ⟨b1, b2⟩, b3, b4⟩ := h1 t ht
  constructor
  · refine Or.inl ⟨t.p1, MeshUtil.corner1 _ _ _, ?_⟩
    refine ⟨⟨?_, ?_⟩, ⟨?_, ?_⟩, ⟨?_, ?_⟩⟩ <;> dsimp only <;> linarith
  · rcases h2 t ht with h | ⟨e1, e2, e3⟩
    · refine Or.inl ⟨t.p3, MeshUtil.corner3 _ _ _, ?_⟩
      rw [h]
      refine ⟨⟨?_, ?_⟩, ⟨?_, ?_⟩, ⟨?_, ?_⟩⟩ <;> dsimp only <;> linarith
    · refine Or.inr ?_
      rintro q ⟨u, v, w, hu, hv, hw, hs', hx, hy, hz'⟩ ⟨⟨a1, a2⟩, -⟩
      rw [e1, e2, e3] at hx
      dsimp only at a1
      linarith

/-- C107 is not empty: the pyramid in two cells, both of them cut.  There are points for which the reported volume is 1/12 and the reported percentage 100. -/
theorem exRepresented (rl ru : Nat → Nat → V3 ℚ) (neglect debug : Bool) : ∃ (inp : Embedded.VolumeInput ℚ), inp.classes = [.trimmed, .trimmed] ∧
    MeshUtil.meshVolume exEnvM.norm exPyramid = some inp.volume ∧ ∀ order : List Nat, order.Perm (Embedded.scheduled inp) →
    ∃ s info, Embedded.computeVolume debug inp order {} = some (s, info) ∧ info.represented = 1 / 12 ∧ info.percentage = 100 := by
  have hrun : (match Query.new exNode exEnvM.maxd exPyramid true with
    | .error _ => false
    | .ok g =>
      match BRep.clipTriangleMesh exEnvM.zt exEnvM.snaptol g ⟨0, 0, 0⟩ ⟨1, 1, 1⟩, BRep.clipTriangleMesh exEnvM.zt exEnvM.snaptol g ⟨1, 0, 0⟩ ⟨2, 1, 1⟩ with
      | .ok c0, .ok c1 => ((((List.range 6).all fun k => decide (edgesOn c0 k = (exEdgesP false)[k]?)) && decide (c0.mesh.triangles ≠ [])) &&
          (((List.range 6).all fun k => decide (edgesOn c1 k = (exEdgesP true)[k]?)) && decide (c1.mesh.triangles ≠ []))) &&
          ((((List.range 6).all fun j => (List.range 6).all fun k => decide (j = k) || (c0.edges j).all fun e => decide (e ∉ c0.edges k)) &&
          ((List.range 6).all fun j => (List.range 6).all fun k => decide (j = k) || (c1.edges j).all fun e => decide (e ∉ c1.edges k))) &&
          (decide (0 ≤ volume6 (c0.mesh.visit.getD []) + (sixFaces.map fun f => 2 * exSections f.1 (faceCell f ⟨0, 0, 0⟩) * offset ⟨0, 0, 0⟩ ⟨1, 1, 1⟩ f).sum) &&
          decide (0 ≤ volume6 (c1.mesh.visit.getD []) + (sixFaces.map fun f => 2 * exSections f.1 (faceCell f ⟨1, 0, 0⟩) * offset ⟨1, 0, 0⟩ ⟨2, 1, 1⟩ f).sum)))
      | _, _ => false) = true := by decide +kernel
  cases hg : Query.new exNode exEnvM.maxd exPyramid true with
  | error e => rw [hg] at hrun; exact absurd hrun (by simp)
  | ok g =>
    rw [hg] at hrun
    dsimp only at hrun
    cases hc0 : BRep.clipTriangleMesh exEnvM.zt exEnvM.snaptol g ⟨0, 0, 0⟩ ⟨1, 1, 1⟩ with
    | error e => rw [hc0] at hrun; exact absurd hrun (by simp)
    | ok c0 =>
    cases hc1 : BRep.clipTriangleMesh exEnvM.zt exEnvM.snaptol g ⟨1, 0, 0⟩ ⟨2, 1, 1⟩ with
    | error e => rw [hc0, hc1] at hrun; exact absurd hrun (by simp)
    | ok c1 =>
      rw [hc0, hc1] at hrun
      dsimp only at hrun
      simp only [Bool.and_eq_true, Bool.or_eq_true, List.all_eq_true, List.mem_range, decide_eq_true_eq] at hrun
      obtain ⟨⟨⟨r1, r2⟩, r3, r4⟩, ⟨r5, r6⟩, r7, r8⟩ := hrun
      obtain ⟨c, hplanes⟩ : ∃ c : Nat → Nat → ℚ, c = gridPlanes exCellsP exDomP := ⟨_, rfl⟩
      have hcount : exCellsP.get = exCount := by funext d; rcases d with _ | _ | d <;> rfl
      have hcells : gridCells exCellsP.get = [⟨0, 0, 0⟩, ⟨1, 0, 0⟩] := by decide +kernel
      have l0 : lowerCorner c ⟨0, 0, 0⟩ = ⟨0, 0, 0⟩ := by rw [hplanes]; decide +kernel
      have l1 : lowerCorner c ⟨1, 0, 0⟩ = ⟨1, 0, 0⟩ := by rw [hplanes]; decide +kernel
      have u0 : upperCorner c ⟨0, 0, 0⟩ = ⟨1, 1, 1⟩ := by rw [hplanes]; decide +kernel
      have u1 : upperCorner c ⟨1, 0, 0⟩ = ⟨2, 1, 1⟩ := by rw [hplanes]; decide +kernel
      have hvis : exPyramid.visit = some (exPyramid.visit.getD []) := by decide +kernel
      have hverts : ∀ t ∈ exPyramid.visit.getD [], t.p1 ∈ exPyramid.vertices ∧ t.p2 ∈ exPyramid.vertices ∧ t.p3 ∈ exPyramid.vertices := by decide +kernel
      have hvol : volume6 (exPyramid.visit.getD []) / 6 = 1 / 12 := by decide +kernel
      have hcl : ClosedSurface (exPyramid.visit.getD []) := by unfold ClosedSurface; decide +kernel
      have hun : UnitNormals exEnvM.norm (exPyramid.visit.getD []) := by
        have : ∀ t ∈ exPyramid.visit.getD [], exEnvM.norm (triangleArea2 t.p1 t.p2 t.p3) * t.normal.x = (triangleArea2 t.p1 t.p2 t.p3).x ∧
            exEnvM.norm (triangleArea2 t.p1 t.p2 t.p3) * t.normal.y = (triangleArea2 t.p1 t.p2 t.p3).y ∧
            exEnvM.norm (triangleArea2 t.p1 t.p2 t.p3) * t.normal.z = (triangleArea2 t.p1 t.p2 t.p3).z := by decide +kernel
        exact this
      have hw : ∀ d < 3, ∀ i < exCellsP.get d, c d i + 20 * exEnvM.zt < c d (i + 1) := by rw [hplanes]; decide +kernel
      obtain ⟨snap, hsnap⟩ : ∃ snap : V3 Nat → ℚ, ∀ k, snap k = 1 / 10 * max (max ((upperCorner c k).x - (lowerCorner c k).x)
        (max ((upperCorner c k).y - (lowerCorner c k).y) ((upperCorner c k).z - (lowerCorner c k).z)) * exEnvM.snaptol) exEnvM.snaptol := ⟨_, fun _ => rfl⟩
      have s0 : snap ⟨0, 0, 0⟩ = 1 / 10 ^ 13 := by rw [hsnap, l0, u0]; decide +kernel
      have s1 : snap ⟨1, 0, 0⟩ = 1 / 10 ^ 13 := by rw [hsnap, l1, u1]; decide +kernel
      have hsm : ∀ k ∈ gridCells exCellsP.get, 10 * exEnvM.zt ≤ snap k ∧ 9 * snap k ≤ 1 / 10 ^ 12 ∧ ∀ d < 3,
          2 * snap k ≤ (upperCorner c k).get d - (lowerCorner c k).get d ∧
          (upperCorner c k).get d - (lowerCorner c k).get d + 20 * snap k ≤ exEnvM.maxd ∧ -exEnvM.maxd ≤ (lowerCorner c k).get d := by
        rw [hcells]
        intro k hk
        simp only [List.mem_cons, List.not_mem_nil, or_false] at hk
        rcases hk with rfl | rfl
        · rw [s0, l0, u0]; decide +kernel
        · rw [s1, l1, u1]; decide +kernel
      have hclear : ∀ t ∈ exPyramid.visit.getD [], ClearOfGrid c exCellsP.get (1 / 10 ^ 12) t.p1 t.p2 t.p3 := by
        intro t ht
        rw [hcount]
        refine clear_congr ?_ (exPyramid_clear _ _ _ (hverts t ht).1 (hverts t ht).2.1 (hverts t ht).2.2)
        rw [hplanes]
        decide +kernel
      have hdec : ∀ k ∈ gridCells exCellsP.get, ∀ t ∈ exPyramid.visit.getD [], Decided exEnvM.zt (snap k) (lowerCorner c k) (upperCorner c k) t := by
        rw [hcells]
        intro k hk t ht
        simp only [List.mem_cons, List.not_mem_nil, or_false] at hk
        rcases hk with rfl | rfl
        · rw [l0, u0]; exact (exPyramid_decided (by rw [s0]; norm_num) t ht).1
        · rw [l1, u1]; exact (exPyramid_decided (by rw [s1]; norm_num) t ht).2
      have hout : ∀ d < 3, ∀ k : V3 Nat, k.get d = 0 ∨ k.get d = exCellsP.get d → exSections d k = 0 := by
        rintro d hd k h
        unfold exSections
        refine if_neg ?_
        rintro ⟨rfl, h1⟩
        rcases h with h | h
        · change k.x = 0 at h; omega
        · change k.x = 2 at h; omega
      obtain ⟨cm, hcm⟩ : ∃ cm : V3 Nat → ClippedMesh ℚ, ∀ k, cm k = if k.x = 0 then c0 else c1 := ⟨_, fun _ => rfl⟩
      have m0 : cm ⟨0, 0, 0⟩ = c0 := by rw [hcm]; rfl
      have m1 : cm ⟨1, 0, 0⟩ = c1 := by rw [hcm]; rfl
      have hclip : ∀ k ∈ gridCells exCellsP.get, BRep.clipTriangleMesh exEnvM.zt exEnvM.snaptol g (lowerCorner c k) (upperCorner c k) = .ok (cm k) := by
        rw [hcells]
        intro k hk
        simp only [List.mem_cons, List.not_mem_nil, or_false] at hk
        rcases hk with rfl | rfl
        · rw [l0, u0, m0]; exact hc0
        · rw [l1, u1, m1]; exact hc1
      have hone : ∀ k ∈ gridCells exCellsP.get, ∀ i < 6, ∀ j < 6, i ≠ j → ∀ e ∈ (cm k).edges i, e ∉ (cm k).edges j := by
        rw [hcells]
        intro k hk i hi j hj hij e he
        simp only [List.mem_cons, List.not_mem_nil, or_false] at hk
        rcases hk with rfl | rfl
        · rw [m0] at he ⊢; exact (r5 i hi j hj).resolve_left hij e he
        · rw [m1] at he ⊢; exact (r6 i hi j hj).resolve_left hij e he
      have hne : ∀ k ∈ gridCells exCellsP.get, (cm k).mesh.triangles ≠ [] := by
        rw [hcells]
        intro k hk
        simp only [List.mem_cons, List.not_mem_nil, or_false] at hk
        rcases hk with rfl | rfl
        · rw [m0]; exact r2
        · rw [m1]; exact r4
      have hcut : ∀ k ∈ gridCells exCellsP.get, (cm k).mesh.triangles ≠ [] → ∀ f ∈ sixFaces, ∀ P es,
          exEnvM.face (cm k).mesh (lowerCorner c k) (upperCorner c k) false f.1 f.2 = .ok P →
          FaceEdges (cm k) (2 * f.1 + f.2.toNat) es → P.Bounds es (exSections f.1 (faceCell f k)) ∧ P.SealedBounds es fun _ => 0 := by
        rw [hcells]
        intro k hk _ f hf P es hP hes
        have hes := faceEdges_unique hes
        simp only [List.mem_cons, List.not_mem_nil, or_false] at hk
        simp only [sixFaces, List.mem_cons, List.not_mem_nil, or_false] at hf
        rcases hk with rfl | rfl
        · rw [m0] at hP hes
          rw [l0, u0] at hP
          replace hes := (r1 _ (by rcases hf with rfl | rfl | rfl | rfl | rfl | rfl <;> decide)).symm.trans hes
          rcases hf with rfl | rfl | rfl | rfl | rfl | rfl <;> cases hP <;> cases hes
          · exact ⟨exNothing_bounds _ _ _ _ _ _ (by decide +kernel), exNothing_sealed _ _ _ _ _ _ (by decide +kernel)⟩
          · exact ⟨exSquare_bounds true, exSquare_sealed true⟩
          · exact ⟨exNothing_bounds _ _ _ _ _ _ (by decide +kernel), exNothing_sealed _ _ _ _ _ _ (by decide +kernel)⟩
          · exact ⟨exNothing_bounds _ _ _ _ _ _ (by decide +kernel), exNothing_sealed _ _ _ _ _ _ (by decide +kernel)⟩
          · exact ⟨exNothing_bounds _ _ _ _ _ _ (by decide +kernel), exNothing_sealed _ _ _ _ _ _ (by decide +kernel)⟩
          · exact ⟨exNothing_bounds _ _ _ _ _ _ (by decide +kernel), exNothing_sealed _ _ _ _ _ _ (by decide +kernel)⟩
        · rw [m1] at hP hes
          rw [l1, u1] at hP
          replace hes := (r3 _ (by rcases hf with rfl | rfl | rfl | rfl | rfl | rfl <;> decide)).symm.trans hes
          rcases hf with rfl | rfl | rfl | rfl | rfl | rfl <;> cases hP <;> cases hes
          · exact ⟨exSquare_bounds false, exSquare_sealed false⟩
          · exact ⟨exNothing_bounds _ _ _ _ _ _ (by decide +kernel), exNothing_sealed _ _ _ _ _ _ (by decide +kernel)⟩
          · exact ⟨exNothing_bounds _ _ _ _ _ _ (by decide +kernel), exNothing_sealed _ _ _ _ _ _ (by decide +kernel)⟩
          · exact ⟨exNothing_bounds _ _ _ _ _ _ (by decide +kernel), exNothing_sealed _ _ _ _ _ _ (by decide +kernel)⟩
          · exact ⟨exNothing_bounds _ _ _ _ _ _ (by decide +kernel), exNothing_sealed _ _ _ _ _ _ (by decide +kernel)⟩
          · exact ⟨exNothing_bounds _ _ _ _ _ _ (by decide +kernel), exNothing_sealed _ _ _ _ _ _ (by decide +kernel)⟩
      have hpos : ∀ k ∈ gridCells exCellsP.get, (cm k).mesh.triangles ≠ [] → ∀ ts, (cm k).mesh.visit = some ts →
          0 ≤ volume6 ts + (sixFaces.map fun f => 2 * exSections f.1 (faceCell f k) * offset (lowerCorner c k) (upperCorner c k) f).sum := by
        rw [hcells]
        intro k hk _ ts hts
        simp only [List.mem_cons, List.not_mem_nil, or_false] at hk
        rcases hk with rfl | rfl
        · rw [m0] at hts; rw [hts] at r7; rw [l0, u0]; exact r7
        · rw [m1] at hts; rw [hts] at r8; rw [l1, u1]; exact r8
      obtain ⟨vol, w1, -⟩ := C107_solid_partial exEnvM_sound exEnvM_sortsTop exEnvM_length (by decide +kernel) (by decide +kernel) (by decide +kernel) hvis hcl hun hg c exCellsP.get hw snap
        (1 / 10 ^ 12) (by decide +kernel) (fun k _ => hsnap k) hsm hclear hdec exSections hout (fun _ => False) (fun _ => 0) 40 cm hclip hone hcut hpos
        (fun _ _ _ h => h.elim) (fun k hk h => absurd h (hne k hk))
      have hN : Grid.numElements exCellsP = 2 := by decide +kernel
      have hmem : ∀ i < 2, Grid.toMat exCellsP i ∈ gridCells exCellsP.get := by decide +kernel
      have hbox := BRep.box_corners exCellsP exDomP (by decide +kernel)
      rw [← hplanes] at hbox
      have hdet : ∀ i < 2, Mapping.detJ ⟨Grid.boxXYZ exCellsP exDomP i, Grid.boxXYZ exCellsP exDomP i⟩ = 1 := by decide +kernel
      obtain ⟨inp, hinp⟩ : ∃ inp : Embedded.VolumeInput ℚ, inp = ⟨[.trimmed, .trimmed], fun i => ⟨Grid.boxXYZ exCellsP exDomP i, Grid.boxXYZ exCellsP exDomP i⟩,
        fun i => if 0 < vol (Grid.toMat exCellsP i) / cellVolume c (Grid.toMat exCellsP i) then some [⟨⟨0, 0, 0⟩, vol (Grid.toMat exCellsP i)⟩] else none,
        false, fun _ => [], fun _ _ => [], 1 / 12⟩ := ⟨_, rfl⟩
      have hcls : ∀ i < 2, inp.classes[i]? = some .trimmed := by
        rw [hinp]
        show ∀ i < 2, ([IState.trimmed, IState.trimmed] : List IState)[i]? = some IState.trimmed
        decide
      have hiv : MeshUtil.meshVolume exEnvM.norm exPyramid = some inp.volume := by
        rw [hinp]
        show MeshUtil.meshVolume exEnvM.norm exPyramid = some (1 / 12)
        decide +kernel
      refine ⟨inp, by rw [hinp], hiv, fun order hp => ?_⟩
      have dom : ∀ i < 2, ∃ closed, MeshUtil.meshVolume exEnvM.norm closed = some (vol (Grid.toMat exCellsP i)) ∧
          exEnvM.getTrimmedDomain g (rl i) (ru i) (Grid.boxXYZ exCellsP exDomP i).lower (Grid.boxXYZ exCellsP exDomP i).upper 0 40 neglect =
            .ok (if 0 < vol (Grid.toMat exCellsP i) / cellVolume c (Grid.toMat exCellsP i) then some ⟨cm (Grid.toMat exCellsP i), closed⟩ else none) := by
        intro i hi
        obtain ⟨closed, -, -, -, -, -, d5, d6⟩ := (w1 _ (hmem i hi)).2.1 (hne _ (hmem i hi))
        refine ⟨closed, d5, ?_⟩
        rw [(hbox i).1, (hbox i).2]
        exact d6 _ _ _ _
      obtain ⟨s, info, q1, q2, q3, q4⟩ := C107_represented_partial exEnvM_sound exEnvM_sortsTop exEnvM_length (by decide +kernel) (by decide +kernel) (by decide +kernel) hvis hcl hun hg
        exCellsP exDomP (by decide +kernel) hplanes hw snap
        (1 / 10 ^ 12) (by decide +kernel) (fun k _ => hsnap k) hsm hclear hdec exSections hout (fun _ => False) (fun _ => 0) 40 cm hclip hone hcut hpos
        (fun _ _ _ h => h.elim) (fun k hk h => absurd h (hne k hk)) debug inp (by rw [hN, hinp]; rfl) (by rw [hN]; norm_num) order hp
        (by rw [hN]; exact fun i hi _ => hcls i hi) (fun _ _ _ h => h.elim) (by rw [hN]; exact fun i hi h => absurd h (hne _ (hmem i hi)))
        (by rw [hN]; intro i hi h; rw [hcls i hi] at h; cases h) rl ru 0 neglect (fun _ => 0)
        (by
          rw [hN]
          intro i hi _ hno
          obtain ⟨closed, -, d⟩ := dom i hi
          rw [d] at hno
          rw [hinp]
          dsimp only
          split_ifs at hno ⊢ with hlt
          · cases Except.ok.inj hno
          · rfl)
        (by
          rw [hN]
          intro i hi _ t v hso hv
          obtain ⟨closed, d5, d⟩ := dom i hi
          rw [d] at hso
          split_ifs at hso with hlt
          · have ht := Option.some.inj (Except.ok.inj hso)
            rw [← ht] at hv
            rw [d5] at hv
            refine ⟨[⟨⟨0, 0, 0⟩, vol (Grid.toMat exCellsP i)⟩], by rw [hinp]; exact if_pos hlt, ?_⟩
            rw [← Option.some.inj hv, hinp]
            simp [physicalWeight, Mapping.ipToGlobal, hdet i hi]
          · cases Except.ok.inj hso)
        hiv
      have hb : ((List.range (Grid.numElements exCellsP)).map fun i => if inp.classes[i]? = some .trimmed then
        cellError (exEnvM.getTrimmedDomain g (rl i) (ru i) (Grid.boxXYZ exCellsP exDomP i).lower (Grid.boxXYZ exCellsP exDomP i).upper 0 40 neglect) (0 : ℚ)
          (0 * cellVolume c (Grid.toMat exCellsP i)) else 0).sum = 0 := by
        refine List.sum_eq_zero fun x hx => ?_
        obtain ⟨i, -, rfl⟩ := List.mem_map.1 hx
        split_ifs
        · unfold cellError; split <;> simp
        · rfl
      rw [hb] at q3 q4
      rw [hvol] at q2 q3
      refine ⟨s, info, q1, ?_, ?_⟩
      · exact sub_eq_zero.1 (abs_nonpos_iff.1 q3)
      · have := q4 (by rw [q2]; norm_num)
        rw [mul_zero, zero_div] at this
        exact sub_eq_zero.1 (abs_nonpos_iff.1 this)

end QuESo.Domain
