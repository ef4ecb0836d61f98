import Verif.Spec.SolidVolume
import Verif.Props.ClipPartition
import Verif.Props.TrimmedSection
import Mathlib.Algebra.BigOperators.Group.Finset.Basic
import Mathlib.Algebra.BigOperators.Intervals

/-!
# The volumes of the cells add up to the volume of the solid (C106)
-/
namespace QuESo.Domain
open QuESo.AABBTree (Fault Node)
open QuESo.Spec QuESo.Clip QuESo.GQ
variable {K : Type} [Field K] [LinearOrder K] [IsStrictOrderedRing K]

omit [LinearOrder K] [IsStrictOrderedRing K] in
theorem sum_gridCells (n : Nat → Nat) (F : V3 Nat → K) : ((gridCells n).map F).sum =
    ∑ i ∈ Finset.range (n 0), ∑ j ∈ Finset.range (n 1), ∑ k ∈ Finset.range (n 2), F ⟨i, j, k⟩ := by
  have h1 : ∀ (l : List Nat) (G : Nat → List (V3 Nat)), ((l.flatMap G).map F).sum = (l.map fun i => ((G i).map F).sum).sum := by
    intro l G
    induction l with
    | nil => simp
    | cons a l ih => simp [ih]
  have h2 : ∀ (m : Nat) (G : Nat → K), ((List.range m).map G).sum = ∑ i ∈ Finset.range m, G i := by
    intro m G
    rw [← List.sum_toFinset _ List.nodup_range, List.toFinset_range]
  unfold gridCells
  rw [h1, h2]
  refine Finset.sum_congr rfl fun i _ => ?_
  rw [h1, h2]
  refine Finset.sum_congr rfl fun j _ => ?_
  rw [List.map_map, h2]
  rfl

omit [LinearOrder K] [IsStrictOrderedRing K] in
/-- What flows through the faces between cells leaves one cell and enters another one. -/
theorem sum_faces (n : Nat → Nat) (G : V3 Nat → K) {d : Nat} (hd : d < 3) (hG : ∀ k : V3 Nat, k.get d = 0 ∨ k.get d = n d → G k = 0) :
    ((gridCells n).map fun k => G (nextCell d k) - G k).sum = 0 := by
  rw [sum_gridCells]
  match d, hd with
  | 0, _ =>
    rw [Finset.sum_comm]
    refine Finset.sum_eq_zero fun j _ => ?_
    rw [Finset.sum_comm]
    refine Finset.sum_eq_zero fun k _ => ?_
    refine (Finset.sum_range_sub (fun i => G ⟨i, j, k⟩) _).trans ?_
    rw [hG ⟨n 0, j, k⟩ (Or.inr rfl), hG ⟨0, j, k⟩ (Or.inl rfl), sub_zero]
  | 1, _ =>
    refine Finset.sum_eq_zero fun i _ => ?_
    rw [Finset.sum_comm]
    refine Finset.sum_eq_zero fun k _ => ?_
    refine (Finset.sum_range_sub (fun j => G ⟨i, j, k⟩) _).trans ?_
    rw [hG ⟨i, n 1, k⟩ (Or.inr rfl), hG ⟨i, 0, k⟩ (Or.inl rfl), sub_zero]
  | 2, _ =>
    refine Finset.sum_eq_zero fun i _ => Finset.sum_eq_zero fun j _ => ?_
    refine (Finset.sum_range_sub (fun k => G ⟨i, j, k⟩) _).trans ?_
    rw [hG ⟨i, j, n 2⟩ (Or.inr rfl), hG ⟨i, j, 0⟩ (Or.inl rfl), sub_zero]

/-- The contributions of the faces of all cells cancel. -/
theorem sum_regions (c : Nat → Nat → K) (n : Nat → Nat) {A : Nat → V3 Nat → K} (hA : ∀ d < 3, ∀ k : V3 Nat, k.get d = 0 ∨ k.get d = n d → A d k = 0) :
    ((gridCells n).map fun k => (sixFaces.map fun f => 2 * A f.1 (faceCell f k) * offset (lowerCorner c k) (upperCorner c k) f).sum).sum = 0 := by
  have h : ∀ d, d < 3 → ((gridCells n).map fun k => 2 * A d (nextCell d k) * c d ((nextCell d k).get d) - 2 * A d k * c d (k.get d)).sum = 0 :=
    fun d hd => sum_faces n (fun k => 2 * A d k * c d (k.get d)) hd fun k hk => by simp only [hA d hd k hk]; ring
  have e : ∀ k : V3 Nat, (sixFaces.map fun f => 2 * A f.1 (faceCell f k) * offset (lowerCorner c k) (upperCorner c k) f).sum =
      (2 * A 0 (nextCell 0 k) * c 0 ((nextCell 0 k).get 0) - 2 * A 0 k * c 0 (k.get 0)) +
      ((2 * A 1 (nextCell 1 k) * c 1 ((nextCell 1 k).get 1) - 2 * A 1 k * c 1 (k.get 1)) +
      (2 * A 2 (nextCell 2 k) * c 2 ((nextCell 2 k).get 2) - 2 * A 2 k * c 2 (k.get 2))) := by
    intro k
    simp only [sixFaces, List.map_cons, List.map_nil, List.sum_cons, List.sum_nil, faceCell, offset, nextCell, lowerCorner, upperCorner, V3.get, if_true,
      if_false, Bool.false_eq_true]
    ring
  simp only [e]
  have := h 0 (by norm_num)
  have := h 1 (by norm_num)
  have := h 2 (by norm_num)
  simp only [List.sum_map_add, *, add_zero]

/-- C106: let the solid be given by a surface inside the grid, clear of the planes of the grid, and let `A d k` be the area of the section of the solid with the face
`(d, k)` of the grid, zero on the outer faces.  If for every cell with triangles the recorded edges bound the sections of its faces, and every other cell is
completely inside or completely outside, then the closed boundaries of all cut cells are found, and their volumes and those of the cells inside add up to the volume of
the solid. -/
theorem C106_volume_partial {E : Env K} (hE : E.Sound) (hsort : E.SortsTop) {node : Node K} {m : Mesh K} (hm : m.check = true) (hne : m.triangles ≠ [])
    (hn : m.triangles.length ≤ 2 ^ 30) {us : List (Tri K)} (hv : m.visit = some us) {cl : Bool} {g : Query K} (hg : Query.new node E.maxd m cl = .ok g)
    (c : Nat → Nat → K) (n : Nat → Nat) (hw : ∀ d < 3, ∀ i < n d, c d i + 20 * E.zt < c d (i + 1))
    (snap : V3 Nat → K) (δ : K) (hδ : 10 * E.zt ≤ δ)
    (hsnap : ∀ k ∈ gridCells n, snap k = 1 / 10 * max (max ((upperCorner c k).x - (lowerCorner c k).x) (max ((upperCorner c k).y - (lowerCorner c k).y)
      ((upperCorner c k).z - (lowerCorner c k).z)) * E.snaptol) E.snaptol)
    (hsm : ∀ k ∈ gridCells n, 10 * E.zt ≤ snap k ∧ 9 * snap k ≤ δ ∧ ∀ d < 3,
      2 * snap k ≤ (upperCorner c k).get d - (lowerCorner c k).get d ∧
      (upperCorner c k).get d - (lowerCorner c k).get d + 20 * snap k ≤ E.maxd ∧ -E.maxd ≤ (lowerCorner c k).get d)
    (hc : ∀ t ∈ us, ClearOfGrid c n δ t.p1 t.p2 t.p3) (A : Nat → V3 Nat → K) (hout : ∀ d < 3, ∀ k : V3 Nat, k.get d = 0 ∨ k.get d = n d → A d k = 0)
    (inside : V3 Nat → Prop) (minTri : Nat) (switch : V3 Nat → Bool) (clipped : V3 Nat → ClippedMesh K)
    (hclip : ∀ k ∈ gridCells n, BRep.clipTriangleMesh E.zt E.snaptol g (lowerCorner c k) (upperCorner c k) = .ok (clipped k))
    (hcut : ∀ k ∈ gridCells n, (clipped k).mesh.triangles ≠ [] → ∀ f ∈ sixFaces, ∀ P es,
      E.face (clipped k).mesh (lowerCorner c k) (upperCorner c k) (switch k) f.1 f.2 = .ok P →
      FaceEdges (clipped k) (2 * f.1 + f.2.toNat) es → P.Bounds es (A f.1 (faceCell f k)))
    (hin : ∀ k ∈ gridCells n, (clipped k).mesh.triangles = [] → inside k → ∀ f ∈ sixFaces, A f.1 (faceCell f k) = faceArea c k f.1)
    (hno : ∀ k ∈ gridCells n, (clipped k).mesh.triangles = [] → ¬ inside k → ∀ f ∈ sixFaces, A f.1 (faceCell f k) = 0) :
    ∃ vol : V3 Nat → K, (∀ k ∈ gridCells n,
        ((clipped k).mesh.triangles ≠ [] → ∃ closed ts, E.build (clipped k) (lowerCorner c k) (upperCorner c k) minTri (switch k) = .ok closed ∧
          closed.check = true ∧ closed.visit = some ts ∧ vol k = volume6 ts / 6) ∧
        ((clipped k).mesh.triangles = [] → inside k → vol k = cellVolume c k) ∧
        ((clipped k).mesh.triangles = [] → ¬ inside k → vol k = 0)) ∧
      ((gridCells n).map vol).sum = volume6 us / 6 := by
  obtain ⟨g', out, ps, h1, h2, -, -, h5, -⟩ := BRep.C105_clip_partial node E.maxd E.zt E.snaptol δ hE.zt_pos.le hE.snaptol_pos hδ m hm hne hn cl us hv c n hw snap hsnap
    (fun k hk => ⟨(hsm k hk).2.1, fun d hd => ((hsm k hk).2.2 d hd).1⟩) hc _ (List.Perm.refl _)
  rw [hg] at h1
  cases h1
  have hvis : ∀ k ∈ gridCells n, (clipped k).mesh.check = true ∧ (clipped k).mesh.visit = some (ps k) := fun k hk => by
    obtain ⟨a1, a2, a3⟩ := h2 k hk
    rw [hclip k hk] at a1
    rw [Except.ok.inj a1]
    exact ⟨a2, a3⟩
  have key : ∀ k ∈ gridCells n, ∃ v : K, ((clipped k).mesh.triangles ≠ [] → ∃ closed ts, E.build (clipped k) (lowerCorner c k) (upperCorner c k) minTri (switch k) = .ok closed ∧
          closed.check = true ∧ closed.visit = some ts ∧ v = volume6 ts / 6) ∧
        ((clipped k).mesh.triangles = [] → inside k → v = cellVolume c k) ∧
        ((clipped k).mesh.triangles = [] → ¬ inside k → v = 0) ∧
        v * 6 = volume6 (ps k) + (sixFaces.map fun f => 2 * A f.1 (faceCell f k) * offset (lowerCorner c k) (upperCorner c k) f).sum := by
    intro k hk
    obtain ⟨v1, v2⟩ := hvis k hk
    by_cases ht : (clipped k).mesh.triangles = []
    · have hps : ps k = [] := by
        have := (IO.visit_spec v2).1
        rw [ht] at this
        exact List.length_eq_zero_iff.1 this
      have hz : volume6 (ps k) = 0 := by rw [hps]; rfl
      by_cases hi : inside k
      · refine ⟨cellVolume c k, fun h => absurd ht h, fun _ _ => rfl, fun _ h => absurd hi h, ?_⟩
        have ha := hin k hk ht hi
        simp only [sixFaces, List.mem_cons, List.not_mem_nil, or_false, forall_eq_or_imp, forall_eq] at ha
        obtain ⟨a1, a2, a3, a4, a5, a6⟩ := ha
        simp only [sixFaces, List.map_cons, List.map_nil, List.sum_cons, List.sum_nil, a1, a2, a3, a4, a5, a6, hz, offset, faceArea, cellVolume, lowerCorner, upperCorner, V3.get,
          if_true, if_false, Bool.false_eq_true]
        ring
      · refine ⟨0, fun h => absurd ht h, fun _ h => absurd h hi, fun _ _ => rfl, ?_⟩
        have ha := hno k hk ht hi
        simp only [sixFaces, List.mem_cons, List.not_mem_nil, or_false, forall_eq_or_imp, forall_eq] at ha
        obtain ⟨a1, a2, a3, a4, a5, a6⟩ := ha
        simp only [sixFaces, List.map_cons, List.map_nil, List.sum_cons, List.sum_nil, a1, a2, a3, a4, a5, a6, hz]
        ring
    · obtain ⟨s1, -, s3⟩ := hsm k hk
      have sx := s3 0 (by norm_num)
      have sy := s3 1 (by norm_num)
      have sz := s3 2 (by norm_num)
      simp only [V3.get] at sx sy sz
      obtain ⟨closed, ts, caps, ts', k1, k2, k3, k4, -, -, -, k8⟩ := C77_regions hE hsort hm hne hn hg (hsnap k hk) s1 sx.1 sy.1 sz.1 sx.2.1 sy.2.1 sz.2.1
        sx.2.2 sy.2.2 sz.2.2 (hclip k hk) ht minTri (switch k) (area := fun f => A f.1 (faceCell f k)) (hcut k hk ht)
      rw [v2] at k3
      cases k3
      refine ⟨volume6 ts' / 6, fun _ => ⟨closed, ts', k1, k2, k4, rfl⟩, fun h => absurd h ht, fun h => absurd h ht, ?_⟩
      rw [← k8]
      ring
  choose! vol v1 v2 v3 v4 using key
  refine ⟨vol, fun k hk => ⟨v1 k hk, v2 k hk, v3 k hk⟩, ?_⟩
  have hsum : ((gridCells n).map fun k => vol k * 6).sum = volume6 us := by
    rw [List.map_congr_left v4, List.sum_map_add, sum_regions c n hout, add_zero, ← h5]
    generalize gridCells n = l
    induction l with
    | nil => simp [volume6]
    | cons a l ih => rw [List.map_cons, List.sum_cons, ih, List.flatMap_cons]; simp [volume6]
  rw [← hsum, List.sum_map_mul_right]
  ring

/-! ### Example: a pyramid in two cells, cut by the plane x = 1 in a square -/

/-- The pyramid; its base is in the first cell, its apex in the second one. -/
def exPyramid : Mesh ℚ :=
  ⟨[⟨1 / 2, 1 / 4, 1 / 4⟩, ⟨1 / 2, 3 / 4, 1 / 4⟩, ⟨1 / 2, 3 / 4, 3 / 4⟩, ⟨1 / 2, 1 / 4, 3 / 4⟩, ⟨3 / 2, 1 / 2, 1 / 2⟩],
   [⟨0, 3, 2⟩, ⟨0, 2, 1⟩, ⟨0, 1, 4⟩, ⟨1, 2, 4⟩, ⟨2, 3, 4⟩, ⟨3, 0, 4⟩],
   [⟨-1, 0, 0⟩, ⟨-1, 0, 0⟩, ⟨1 / 4, 0, -1⟩, ⟨1 / 4, 1, 0⟩, ⟨1 / 4, 0, 1⟩, ⟨1 / 4, -1, 0⟩]⟩

/-- The planes of the grid: 0, 1, 2. -/
def exPlanes (_ i : Nat) : ℚ :=
  match i with
  | 0 => 0
  | 1 => 1
  | _ => 2

/-- The grid has two cells in x direction. -/
def exCount (d : Nat) : Nat := if d = 0 then 2 else 1

/-- The upper sides of the faces are outside. -/
def exEnvP : Env ℚ := { exEnvT with inside := fun _ _ _ _ => false }

theorem exEnvP_sound : exEnvP.Sound :=
  ⟨exEnvT_sound.zt_pos, exEnvT_sound.snaptol_pos, exEnvT_sound.bal, exEnvT_sound.sortE, exEnvT_sound.sortP, exEnvT_sound.sortP_sorted⟩

theorem exEnvP_sortsTop : exEnvP.SortsTop := exEnvT_sortsTop

/-- The set-up of the faces of the cells. -/
def exFaceP (lo up : V3 ℚ) (d1 d2 d3 : Nat) (upper : Bool) : Plane.Params ℚ :=
  ⟨d1, d2, d3, upper, false, lo, up, relativeSnapTolerance lo up exEnvP.snaptol, exEnvP.zt, exEnvP.maxd, fun _ => false, exEnvP.bal, exEnvP.sortE, exEnvP.sortP⟩

/-- The sections with the faces: a square with sides 1/4 in the plane x = 1. -/
def exSections (d : Nat) (k : V3 Nat) : ℚ := if d = 0 ∧ k.x = 1 then 1 / 16 else 0

/-- The edges of the square, seen from both sides. -/
def exSquare (upper : Bool) : List (Plane.Given ℚ) :=
  if upper then [(⟨1, 3 / 8, 3 / 8⟩, ⟨1, 3 / 8, 5 / 8⟩, ⟨1 / 4, -1, 0⟩), (⟨1, 3 / 8, 5 / 8⟩, ⟨1, 5 / 8, 5 / 8⟩, ⟨1 / 4, 0, 1⟩),
    (⟨1, 5 / 8, 3 / 8⟩, ⟨1, 3 / 8, 3 / 8⟩, ⟨1 / 4, 0, -1⟩), (⟨1, 5 / 8, 5 / 8⟩, ⟨1, 5 / 8, 3 / 8⟩, ⟨1 / 4, 1, 0⟩)]
  else [(⟨1, 3 / 8, 5 / 8⟩, ⟨1, 3 / 8, 3 / 8⟩, ⟨1 / 4, -1, 0⟩), (⟨1, 5 / 8, 5 / 8⟩, ⟨1, 3 / 8, 5 / 8⟩, ⟨1 / 4, 0, 1⟩),
    (⟨1, 3 / 8, 3 / 8⟩, ⟨1, 5 / 8, 3 / 8⟩, ⟨1 / 4, 0, -1⟩), (⟨1, 5 / 8, 3 / 8⟩, ⟨1, 5 / 8, 5 / 8⟩, ⟨1 / 4, 1, 0⟩)]

/-- The lower corner of the cell whose upper (lower) face the square is in. -/
def exLo (upper : Bool) : V3 ℚ := if upper then ⟨0, 0, 0⟩ else ⟨1, 0, 0⟩
/-- See `exLo`. -/
def exUpP (upper : Bool) : V3 ℚ := if upper then ⟨1, 1, 1⟩ else ⟨2, 1, 1⟩

theorem section_pair (P : Plane.Params K) {x y a b : K} (hxy : 10 * P.tol < y - x) (h0 : 0 < P.tol) (hz : 0 ≤ P.zt) (ha : P.lo.get P.d2 ≤ a) (hab : a + P.tol + P.zt < b)
    (hl : b - a + P.zt < 10 ^ 15 ∧ b - a < P.maxd) : P.Section [(⟨x, b⟩, ⟨y, b⟩)] [(⟨x, a⟩, ⟨y, a⟩)] := by
  have hb : a < b := by linarith
  have hlt : x < y := by linarith
  have hh : ∀ t z : K, Plane.heightOver (⟨x, t⟩, ⟨y, t⟩) z = t := by intro t z; simp [Plane.heightOver]
  have hne : ((⟨x, b⟩, ⟨y, b⟩) : Plane.P2 K × Plane.P2 K) ≠ (⟨x, a⟩, ⟨y, a⟩) := by
    intro h
    have := congrArg (fun e => e.1.y) h
    exact hb.ne' this
  have hd : |b - a| = b - a := abs_of_pos (by linarith)
  have hd' : |a - b| = b - a := by rw [abs_sub_comm, hd]
  constructor
  · simpa using hne
  · simp [hlt]
  · simp only [List.mem_singleton, forall_eq]; constructor <;> linarith
  · intro u hu v hv
    simp only [Plane.abscissas, List.cons_append, List.nil_append, List.flatMap_cons, List.flatMap_nil, List.mem_cons, List.not_mem_nil, or_false, List.append_nil] at hu hv
    have e1 : |x - y| = y - x := by rw [abs_sub_comm, abs_of_pos (by linarith)]
    have e2 : |y - x| = y - x := abs_of_pos (by linarith)
    rcases hu with rfl | rfl | rfl | rfl <;> rcases hv with rfl | rfl | rfl | rfl <;> first | exact Or.inl rfl | (right; rw [e1]; exact hxy) | (right; rw [e2]; exact hxy)
  · intro e he f hf _ u v _ _ _ _ h
    simp only [List.cons_append, List.nil_append, List.mem_cons, List.not_mem_nil, or_false] at he hf
    rcases he with rfl | rfl <;> rcases hf with rfl | rfl <;> simp only [hh] at h ⊢ <;> linarith
  · intro e he f hf hef u _ _ _
    simp only [List.cons_append, List.nil_append, List.mem_cons, List.not_mem_nil, or_false] at he hf
    rcases he with rfl | rfl <;> rcases hf with rfl | rfl
    · exact absurd rfl hef
    · rw [hh, hh]; exact hb.ne'
    · rw [hh, hh]; exact hb.ne
    · exact absurd rfl hef
  · intro e he f hf hef u _ _ _
    simp only [List.cons_append, List.nil_append, List.mem_cons, List.not_mem_nil, or_false] at he hf
    rcases he with rfl | rfl <;> rcases hf with rfl | rfl
    · exact absurd rfl hef
    · rw [hh, hh, hd]; linarith
    · rw [hh, hh, hd']; linarith
    · exact absurd rfl hef
  · intro e he f hf u _ _ _
    simp only [List.mem_singleton] at he hf
    subst he hf
    rw [hh, hh, hd]; right; linarith
  · intro e he f hf u _ _
    simp only [List.mem_singleton] at he hf
    subst he hf
    rw [hh, hh, hd]; exact hl
  · intro f hf u _ hc
    simp only [List.mem_singleton] at hf
    subst hf
    refine ⟨_, List.mem_singleton.2 rfl, hc, ?_⟩
    rw [hh, hh]; exact hb
  · intro e he f hf u _ _ _ h
    simp only [List.mem_singleton] at he hf
    subst he hf
    exact absurd h (lt_irrefl _)
  · intro e he f hf u _ _ _ h
    simp only [List.mem_singleton] at he hf
    subst he hf
    exact absurd h (lt_irrefl _)

theorem exSquare_bounds (upper : Bool) : (exFaceP (exLo upper) (exUpP upper) 1 2 0 upper).Bounds (exSquare upper) (1 / 16) := by
  have hg : (exFaceP (exLo upper) (exUpP upper) 1 2 0 upper).General (exSquare upper) := by
    cases upper
    · exact ⟨by unfold Plane.Separated; decide +kernel, by decide +kernel, by decide +kernel, by decide +kernel, by decide +kernel,
        by intro o; cases o <;> decide +kernel⟩
    · exact ⟨by unfold Plane.Separated; decide +kernel, by decide +kernel, by decide +kernel, by decide +kernel, by decide +kernel,
        by intro o; cases o <;> decide +kernel⟩
  have hst : ∀ n : Plane.P2 ℚ, n = ⟨0, 1⟩ → (exFaceP (exLo upper) (exUpP upper) 1 2 0 upper).Steep [(⟨3 / 8, 5 / 8⟩, ⟨5 / 8, 5 / 8⟩)] [(⟨3 / 8, 3 / 8⟩, ⟨5 / 8, 3 / 8⟩)] n := by
    rintro n rfl
    refine ⟨by cases upper <;> decide +kernel, fun e he f hf x _ y _ _ _ _ _ _ => ?_⟩
    simp only [List.mem_singleton] at he hf
    subst he hf
    have h1 : Plane.heightOver ((⟨3 / 8, 5 / 8⟩, ⟨5 / 8, 5 / 8⟩) : Plane.P2 ℚ × Plane.P2 ℚ) ((x + y) / 2) = 5 / 8 := by simp [Plane.heightOver]
    have h2 : Plane.heightOver ((⟨3 / 8, 3 / 8⟩, ⟨5 / 8, 3 / 8⟩) : Plane.P2 ℚ × Plane.P2 ℚ) ((x + y) / 2) = 3 / 8 := by simp [Plane.heightOver]
    rw [h1, h2]
    cases upper <;> decide +kernel
  refine ⟨hg, [], [(0, true), (1, false)], [], [(⟨3 / 8, 5 / 8⟩, ⟨5 / 8, 5 / 8⟩)], [(⟨3 / 8, 3 / 8⟩, ⟨5 / 8, 3 / 8⟩)], ?_, ?_, ?_, ?_, ?_, ?_, ?_, ?_⟩
  · cases upper <;> exact ⟨by decide +kernel, by decide +kernel, by decide +kernel⟩
  · cases upper <;>
      refine ⟨fun h => absurd ⟨by decide +kernel, by decide +kernel, rfl⟩ h, fun _ => ⟨5 / 8, ⟨by decide +kernel, ?_, Or.inr ⟨⟨3 / 8, 5 / 8⟩, Or.inl (by decide +kernel), rfl⟩⟩,
        by decide +kernel⟩⟩ <;> rintro p (hp | hp) <;> revert p <;> decide +kernel
  · cases upper <;> decide +kernel
  · cases upper <;> decide +kernel
  · exact section_pair _ (by cases upper <;> decide +kernel) (by cases upper <;> decide +kernel) (by cases upper <;> decide +kernel) (by cases upper <;> decide +kernel)
      (by cases upper <;> decide +kernel) (by cases upper <;> decide +kernel)
  · intro e he
    refine hst _ ?_
    revert e
    cases upper <;> decide +kernel
  · exact hst _ rfl
  · cases upper <;> decide +kernel

theorem exNothing_bounds (lo up : V3 ℚ) (d1 d2 d3 : Nat) (upper : Bool)
    (h : (lo, up, d1, d2, d3, upper) ∈ ([(⟨0, 0, 0⟩, ⟨1, 1, 1⟩, 1, 2, 0, false), (⟨0, 0, 0⟩, ⟨1, 1, 1⟩, 2, 0, 1, false), (⟨0, 0, 0⟩, ⟨1, 1, 1⟩, 2, 0, 1, true),
      (⟨0, 0, 0⟩, ⟨1, 1, 1⟩, 0, 1, 2, false), (⟨0, 0, 0⟩, ⟨1, 1, 1⟩, 0, 1, 2, true),
      (⟨1, 0, 0⟩, ⟨2, 1, 1⟩, 1, 2, 0, true), (⟨1, 0, 0⟩, ⟨2, 1, 1⟩, 2, 0, 1, false), (⟨1, 0, 0⟩, ⟨2, 1, 1⟩, 2, 0, 1, true),
      (⟨1, 0, 0⟩, ⟨2, 1, 1⟩, 0, 1, 2, false), (⟨1, 0, 0⟩, ⟨2, 1, 1⟩, 0, 1, 2, true)] : List (V3 ℚ × V3 ℚ × Nat × Nat × Nat × Bool))) :
    (exFaceP lo up d1 d2 d3 upper).Bounds [] 0 := by
  have key : ∀ vs : List (ℚ × Bool), vs = [(lo.get d1, true), (up.get d1, false)] → (exFaceP lo up d1 d2 d3 upper).Bounds [] 0 := by
    intro vs hvs
    simp only [List.mem_cons, List.not_mem_nil, or_false, Prod.mk.injEq] at h
    rcases h with ⟨rfl, rfl, rfl, rfl, rfl, rfl⟩ | ⟨rfl, rfl, rfl, rfl, rfl, rfl⟩ | ⟨rfl, rfl, rfl, rfl, rfl, rfl⟩ | ⟨rfl, rfl, rfl, rfl, rfl, rfl⟩ |
      ⟨rfl, rfl, rfl, rfl, rfl, rfl⟩ | ⟨rfl, rfl, rfl, rfl, rfl, rfl⟩ | ⟨rfl, rfl, rfl, rfl, rfl, rfl⟩ | ⟨rfl, rfl, rfl, rfl, rfl, rfl⟩ | ⟨rfl, rfl, rfl, rfl, rfl, rfl⟩ |
      ⟨rfl, rfl, rfl, rfl, rfl, rfl⟩ <;>
    refine ⟨⟨by unfold Plane.Separated; decide +kernel, by decide +kernel, by decide +kernel, by decide +kernel, by decide +kernel,
        by intro o; cases o <;> decide +kernel⟩, [], vs, [], [], [], ⟨by decide +kernel, by subst hvs; decide +kernel, by subst hvs; decide +kernel⟩,
      ⟨fun h => absurd ⟨by decide +kernel, by decide +kernel, rfl⟩ h, fun _ => ⟨_, ⟨le_rfl, ?_, Or.inl rfl⟩, rfl⟩⟩, by decide +kernel, by decide +kernel, section_nil _, ?_, ?_, by decide +kernel⟩
    all_goals first
      | (rintro p (hp | hp) <;> revert p <;> decide +kernel)
      | exact ⟨by decide +kernel, fun _ _ _ hf => absurd hf (by simp)⟩
      | exact fun e he => absurd he (by simp [Plane.Params.ofOrient])
  exact key _ rfl

theorem exPyramid_clear (p1 p2 p3 : V3 ℚ) (h1 : p1 ∈ exPyramid.vertices) (h2 : p2 ∈ exPyramid.vertices) (h3 : p3 ∈ exPyramid.vertices) :
    ClearOfGrid exPlanes exCount (1 / 10 ^ 12) p1 p2 p3 := by
  have key : ∀ p ∈ exPyramid.vertices, (p.x = 1 / 2 ∨ p.x = 3 / 2) ∧ (1 / 4 ≤ p.y ∧ p.y ≤ 3 / 4) ∧ (1 / 4 ≤ p.z ∧ p.z ≤ 3 / 4) := by decide +kernel
  have k1 := key p1 h1
  have k2 := key p2 h2
  have k3 := key p3 h3
  have b : ∀ p ∈ exPyramid.vertices, 1 / 2 ≤ p.x ∧ p.x ≤ 3 / 2 := by decide +kernel
  have b1 := b p1 h1
  have b2 := b p2 h2
  have b3 := b p3 h3
  have hx : ∀ i ≤ exCount 0, exPlanes 0 i = 0 ∨ exPlanes 0 i = 1 ∨ exPlanes 0 i = 2 := by decide +kernel
  have hy : ∀ i ≤ exCount 1, exPlanes 1 i = 0 ∨ exPlanes 1 i = 1 := by decide +kernel
  have hz : ∀ i ≤ exCount 2, exPlanes 2 i = 0 ∨ exPlanes 2 i = 1 := by decide +kernel
  refine ⟨fun d hd => ?_, fun d hd i hi h => ?_, fun q hq d hd i hi g1 g2 => ?_⟩
  · interval_cases d
    · show ((0 : ℚ) ≤ p1.x ∧ p1.x ≤ 2) ∧ ((0 : ℚ) ≤ p2.x ∧ p2.x ≤ 2) ∧ ((0 : ℚ) ≤ p3.x ∧ p3.x ≤ 2)
      refine ⟨⟨?_, ?_⟩, ⟨?_, ?_⟩, ?_, ?_⟩ <;> linarith [b1.1, b1.2, b2.1, b2.2, b3.1, b3.2]
    · show ((0 : ℚ) ≤ p1.y ∧ p1.y ≤ 1) ∧ ((0 : ℚ) ≤ p2.y ∧ p2.y ≤ 1) ∧ ((0 : ℚ) ≤ p3.y ∧ p3.y ≤ 1)
      refine ⟨⟨?_, ?_⟩, ⟨?_, ?_⟩, ?_, ?_⟩ <;> linarith [k1.2.1.1, k1.2.1.2, k2.2.1.1, k2.2.1.2, k3.2.1.1, k3.2.1.2]
    · show ((0 : ℚ) ≤ p1.z ∧ p1.z ≤ 1) ∧ ((0 : ℚ) ≤ p2.z ∧ p2.z ≤ 1) ∧ ((0 : ℚ) ≤ p3.z ∧ p3.z ≤ 1)
      refine ⟨⟨?_, ?_⟩, ⟨?_, ?_⟩, ?_, ?_⟩ <;> linarith [k1.2.2.1, k1.2.2.2, k2.2.2.1, k2.2.2.2, k3.2.2.1, k3.2.2.2]
  · replace h := h.1
    interval_cases d
    · change p1.x = _ at h
      rcases hx i hi with e | e | e <;> rw [e] at h <;> rcases k1.1 with e' | e' <;> rw [e'] at h <;> norm_num at h
    · change p1.y = _ at h
      rcases hy i hi with e | e <;> rw [e] at h <;> linarith [k1.2.1.1, k1.2.1.2]
    · change p1.z = _ at h
      rcases hz i hi with e | e <;> rw [e] at h <;> linarith [k1.2.2.1, k1.2.2.2]
  obtain ⟨⟨u, v, w, hu, hv, hw, hs, qx, qy, qz⟩, hk⟩ := hq
  have conv : ∀ a a' b b' r s t : ℚ, (a ≤ r ∧ r ≤ a') → (a ≤ s ∧ s ≤ a') → (a ≤ t ∧ t ≤ a') → a ≤ u * r + v * s + w * t ∧ u * r + v * s + w * t ≤ a' := by
    intro a a' _ _ r s t hr hs' ht
    have e1 : a = u * a + v * a + w * a := by rw [← add_mul, ← add_mul, hs, one_mul]
    have e2 : a' = u * a' + v * a' + w * a' := by rw [← add_mul, ← add_mul, hs, one_mul]
    constructor
    · rw [e1]; exact add_le_add (add_le_add (mul_le_mul_of_nonneg_left hr.1 hu) (mul_le_mul_of_nonneg_left hs'.1 hv)) (mul_le_mul_of_nonneg_left ht.1 hw)
    · rw [e2]; exact add_le_add (add_le_add (mul_le_mul_of_nonneg_left hr.2 hu) (mul_le_mul_of_nonneg_left hs'.2 hv)) (mul_le_mul_of_nonneg_left ht.2 hw)
  have cx := conv (1 / 2) (3 / 2) 0 0 _ _ _ b1 b2 b3
  have cy := conv (1 / 4) (3 / 4) 0 0 _ _ _ k1.2.1 k2.2.1 k3.2.1
  have cz := conv (1 / 4) (3 / 4) 0 0 _ _ _ k1.2.2 k2.2.2 k3.2.2
  rw [← qx] at cx
  rw [← qy] at cy
  rw [← qz] at cz
  have on : ∀ e < 3, OnGridPlane exPlanes exCount e q → q.x = 1 := by
    rintro e he ⟨j, hj, h⟩
    interval_cases e
    · change q.x = _ at h
      rcases hx j hj with e | e | e <;> rw [e] at h <;> first | exact h | linarith [cx.1, cx.2]
    · change q.y = _ at h
      rcases hy j hj with e | e <;> rw [e] at h <;> linarith [cy.1, cy.2]
    · change q.z = _ at h
      rcases hz j hj with e | e <;> rw [e] at h <;> linarith [cz.1, cz.2]
  have qc : q.x = 1 / 2 ∨ q.x = 3 / 2 ∨ q.x = 1 := by
    rcases hk with (rfl | rfl | rfl) | ⟨-, e, he, ho⟩ | ⟨e, he, -, -, -, ho, -⟩
    · rcases k1.1 with h | h <;> simp [h]
    · rcases k2.1 with h | h <;> simp [h]
    · rcases k3.1 with h | h <;> simp [h]
    · exact Or.inr (Or.inr (on e he ho))
    · exact Or.inr (Or.inr (on e he ho))
  interval_cases d
  · change -_ ≤ q.x - _ at g1
    change q.x - _ ≤ _ at g2
    show q.x = _
    rcases hx i hi with e | e | e <;> rw [e] at g1 g2 ⊢ <;> rcases qc with h | h | h <;> rw [h] at g1 g2 ⊢ <;> first | done | (exfalso; revert g1 g2; norm_num)
  · change -_ ≤ q.y - _ at g1
    change q.y - _ ≤ _ at g2
    exfalso
    rcases hy i hi with e | e <;> rw [e] at g1 g2 <;> norm_num at g1 g2 <;> linarith [cy.1, cy.2]
  · change -_ ≤ q.z - _ at g1
    change q.z - _ ≤ _ at g2
    exfalso
    rcases hz i hi with e | e <;> rw [e] at g1 g2 <;> norm_num at g1 g2 <;> linarith [cz.1, cz.2]

/-- The edges on the faces of the two cells. -/
def exEdgesP (second : Bool) : List (List (Plane.Given ℚ)) := if second then [exSquare false, [], [], [], [], []] else [[], exSquare true, [], [], [], []]

/-- C106 is not empty: the pyramid is cut in two cells, and the volumes of the closed boundaries add up to 1/12. -/
theorem exSolidVolume : ∃ g clipped0 clipped1 closed0 closed1 ts0 ts1, Query.new exNode exEnvP.maxd exPyramid true = .ok g ∧
    BRep.clipTriangleMesh exEnvP.zt exEnvP.snaptol g ⟨0, 0, 0⟩ ⟨1, 1, 1⟩ = .ok clipped0 ∧ BRep.clipTriangleMesh exEnvP.zt exEnvP.snaptol g ⟨1, 0, 0⟩ ⟨2, 1, 1⟩ = .ok clipped1 ∧
    exEnvP.build clipped0 ⟨0, 0, 0⟩ ⟨1, 1, 1⟩ 40 false = .ok closed0 ∧ exEnvP.build clipped1 ⟨1, 0, 0⟩ ⟨2, 1, 1⟩ 40 false = .ok closed1 ∧
    closed0.visit = some ts0 ∧ closed1.visit = some ts1 ∧ volume6 ts0 / 6 + volume6 ts1 / 6 = 1 / 12 := by
  have hrun : (match Query.new exNode exEnvP.maxd exPyramid true with
    | .error _ => false
    | .ok g =>
      match BRep.clipTriangleMesh exEnvP.zt exEnvP.snaptol g ⟨0, 0, 0⟩ ⟨1, 1, 1⟩, BRep.clipTriangleMesh exEnvP.zt exEnvP.snaptol g ⟨1, 0, 0⟩ ⟨2, 1, 1⟩ with
      | .ok c0, .ok c1 => (((List.range 6).all fun k => decide (edgesOn c0 k = (exEdgesP false)[k]?)) && decide (c0.mesh.triangles ≠ [])) &&
          (((List.range 6).all fun k => decide (edgesOn c1 k = (exEdgesP true)[k]?)) && decide (c1.mesh.triangles ≠ []))
      | _, _ => false) = true := by decide +kernel
  cases hg : Query.new exNode exEnvP.maxd exPyramid true with
  | error e => rw [hg] at hrun; exact absurd hrun (by simp)
  | ok g =>
    rw [hg] at hrun
    dsimp only at hrun
    cases hc0 : BRep.clipTriangleMesh exEnvP.zt exEnvP.snaptol g ⟨0, 0, 0⟩ ⟨1, 1, 1⟩ with
    | error e => rw [hc0] at hrun; exact absurd hrun (by simp)
    | ok c0 =>
    cases hc1 : BRep.clipTriangleMesh exEnvP.zt exEnvP.snaptol g ⟨1, 0, 0⟩ ⟨2, 1, 1⟩ with
    | error e => rw [hc0, hc1] at hrun; exact absurd hrun (by simp)
    | ok c1 =>
      rw [hc0, hc1] at hrun
      dsimp only at hrun
      simp only [Bool.and_eq_true, List.all_eq_true, List.mem_range, decide_eq_true_eq] at hrun
      obtain ⟨⟨r1, r2⟩, r3, r4⟩ := hrun
      have hcells : gridCells exCount = [⟨0, 0, 0⟩, ⟨1, 0, 0⟩] := by decide +kernel
      have hvis : exPyramid.visit = some (exPyramid.visit.getD []) := by decide +kernel
      have hverts : ∀ t ∈ exPyramid.visit.getD [], t.p1 ∈ exPyramid.vertices ∧ t.p2 ∈ exPyramid.vertices ∧ t.p3 ∈ exPyramid.vertices := by decide +kernel
      have hvol : volume6 (exPyramid.visit.getD []) / 6 = 1 / 12 := by decide +kernel
      obtain ⟨vol, v1, v2⟩ := C106_volume_partial exEnvP_sound exEnvP_sortsTop (by decide +kernel) (by decide +kernel) (by decide +kernel) hvis hg exPlanes exCount
        (by decide +kernel) _ (1 / 10 ^ 12) (by decide +kernel) (fun _ _ => rfl) (by rw [hcells]; decide +kernel)
        (fun t ht => exPyramid_clear _ _ _ (hverts t ht).1 (hverts t ht).2.1 (hverts t ht).2.2) exSections
        (by
          rintro d hd k h
          unfold exSections
          refine if_neg ?_
          rintro ⟨rfl, h1⟩
          rcases h with h | h
          · change k.x = 0 at h; omega
          · change k.x = 2 at h; omega)
        (fun _ => False) 40 (fun _ => false) (fun k => if k.x = 0 then c0 else c1)
        (by
          rw [hcells]
          intro k hk
          simp only [List.mem_cons, List.not_mem_nil, or_false] at hk
          rcases hk with rfl | rfl
          · exact hc0
          · exact hc1)
        (by
          rw [hcells]
          intro k hk _ f hf P es hP hes
          have hes := faceEdges_unique hes
          simp only [List.mem_cons, List.not_mem_nil, or_false] at hk
          simp only [sixFaces, List.mem_cons, List.not_mem_nil, or_false] at hf
          rcases hk with rfl | rfl
          · replace hes := (r1 _ (by rcases hf with rfl | rfl | rfl | rfl | rfl | rfl <;> decide)).symm.trans hes
            rcases hf with rfl | rfl | rfl | rfl | rfl | rfl <;> cases hP <;> cases hes
            · exact exNothing_bounds _ _ _ _ _ _ (by decide +kernel)
            · exact exSquare_bounds true
            · exact exNothing_bounds _ _ _ _ _ _ (by decide +kernel)
            · exact exNothing_bounds _ _ _ _ _ _ (by decide +kernel)
            · exact exNothing_bounds _ _ _ _ _ _ (by decide +kernel)
            · exact exNothing_bounds _ _ _ _ _ _ (by decide +kernel)
          · replace hes := (r3 _ (by rcases hf with rfl | rfl | rfl | rfl | rfl | rfl <;> decide)).symm.trans hes
            rcases hf with rfl | rfl | rfl | rfl | rfl | rfl <;> cases hP <;> cases hes
            · exact exSquare_bounds false
            · exact exNothing_bounds _ _ _ _ _ _ (by decide +kernel)
            · exact exNothing_bounds _ _ _ _ _ _ (by decide +kernel)
            · exact exNothing_bounds _ _ _ _ _ _ (by decide +kernel)
            · exact exNothing_bounds _ _ _ _ _ _ (by decide +kernel)
            · exact exNothing_bounds _ _ _ _ _ _ (by decide +kernel))
        (fun _ _ _ h => h.elim)
        (by
          rw [hcells]
          intro k hk h
          simp only [List.mem_cons, List.not_mem_nil, or_false] at hk
          rcases hk with rfl | rfl
          · exact absurd h r2
          · exact absurd h r4)
      rw [hcells] at v1 v2
      obtain ⟨closed0, ts0, a1, -, a3, a4⟩ := (v1 ⟨0, 0, 0⟩ (by simp)).1 r2
      obtain ⟨closed1, ts1, b1, -, b3, b4⟩ := (v1 ⟨1, 0, 0⟩ (by simp)).1 r4
      refine ⟨g, c0, c1, closed0, closed1, ts0, ts1, rfl, hc0, hc1, a1, b1, a3, b3, ?_⟩
      rw [← a4, ← b4, ← hvol, ← v2]
      simp

end QuESo.Domain
