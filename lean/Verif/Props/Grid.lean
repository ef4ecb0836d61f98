import Verif.Proofs.GridBoxes
import Verif.Proofs.GridWalk

/-!
# Properties C01 – C05: cell numbering, stepping and cell boxes
-/
namespace QuESo.Props
open QuESo.Grid QuESo.Spec

/-! ## C01 Cell numbering is a bijection -/

/-- vector → matrix → vector, and the matrix index lies in the grid. -/
theorem C01_vector_roundtrip (n : V3 Nat) (i : Nat) (h : i < numElements n) :
    InGrid n (toMat n i) ∧ toVec n (toMat n i) = i :=
  ⟨toMat_inGrid n i h, toVec_toMat n i⟩

/-- matrix → vector → matrix, and the number is below the number of cells. -/
theorem C01_matrix_roundtrip (n v : V3 Nat) (h : InGrid n v) :
    toVec n v < n.x * n.y * n.z ∧ toMat n (toVec n v) = v :=
  ⟨toVec_lt n v h, toMat_toVec n v h⟩

/-- Two different cells never share a number. -/
theorem C01_injective (n v w : V3 Nat) (hv : InGrid n v) (hw : InGrid n w)
    (h : toVec n v = toVec n w) : v = w := toVec_inj hv hw h

/-- No division by zero for indices of existing cells. -/
theorem C01_no_ub (n : V3 Nat) (i : Nat) (h : i < numElements n) :
    toMatChecked n i = some (toMat n i) := by
  obtain ⟨h1, h2, _⟩ := pos_of_lt_num h
  have : n.x * n.y ≠ 0 := Nat.mul_ne_zero h1.ne' h2.ne'
  simp [toMatChecked, this, h1.ne']

/-- With 64-bit wrap-around arithmetic the functions agree with the unbounded ones as long as the
number of cells fits into 64 bits. -/
theorem C01_64bit (n : V3 Nat) (h : numElements n < 2 ^ 64) :
    (∀ i, i < numElements n → toMat64 n i = toMat n i) ∧
    (∀ v, InGrid n v → toVec64 n v = toVec n v) := by
  constructor
  · intro i hi
    obtain ⟨_, _, h3⟩ := pos_of_lt_num hi
    have : n.x * n.y < 2 ^ 64 := lt_of_le_of_lt (Nat.le_mul_of_pos_right _ h3) h
    simp only [toMat64, toMat, w64, Nat.mod_eq_of_lt this]
  · intro v hv
    have hlt := toVec_lt n v hv
    obtain ⟨hx, hy, hz⟩ := hv
    have hxy : n.y * n.x < 2 ^ 64 := by
      have : n.x * n.y < 2 ^ 64 := lt_of_le_of_lt (Nat.le_mul_of_pos_right _ (by omega : 0 < n.z)) h
      rwa [Nat.mul_comm]
    have h1 : toVec n v < 2 ^ 64 := lt_trans hlt h
    unfold toVec at h1
    have a1 : v.z * (n.y * n.x) < 2 ^ 64 := by omega
    have a2 : v.y * n.x < 2 ^ 64 := by omega
    have a3 : v.z * (n.y * n.x) + v.y * n.x < 2 ^ 64 := by omega
    simp only [toVec64, toVec, w64, Nat.mod_eq_of_lt hxy, Nat.mod_eq_of_lt a1, Nat.mod_eq_of_lt a2,
      Nat.mod_eq_of_lt a3, Nat.mod_eq_of_lt h1]

example : InGrid ⟨3, 4, 5⟩ ⟨2, 3, 4⟩ ∧ toVec ⟨3, 4, 5⟩ ⟨2, 3, 4⟩ = 59 ∧
    toMat ⟨3, 4, 5⟩ 59 = ⟨2, 3, 4⟩ ∧ 59 < numElements ⟨3, 4, 5⟩ ∧ numElements ⟨3, 4, 5⟩ < 2 ^ 64 := by
  decide

/-- A grid without cells in one direction is not rejected by the settings check; the index
conversion is then undefined behaviour. -/
theorem C01_zero_cells_ub (ny nz i : Nat) : toMatChecked ⟨0, ny, nz⟩ i = none := by
  simp [toMatChecked]

/-! ## C02 Steps -/

/-- The reported number after a step is again a cell of the partition. -/
theorem C02_step_stays (n : V3 Nat) (p : Partition) (hp : ValidPart n p) (d : Dir) (i : Nat)
    (h : InPart p (toMat n i)) : InPart p (toMat n (next n p d i).1) := by
  rw [next_eq]
  have := stepV_inPart hp d h
  simp only []
  rwa [toMat_toVec n _ (inGrid_of_inPart hp this)]

/-- 'middle' is reported exactly when there is a neighbour in the partition, and the returned cell
is that neighbour. -/
theorem C02_middle_is_neighbour (n : V3 Nat) (p : Partition) (hp : ValidPart n p) (d : Dir) (i : Nat)
    (h : InPart p (toMat n i)) :
    ((next n p d i).2 = .middle ↔ ∃ w, InPart p w ∧ Neighbour d (toMat n i) w) ∧
    ((next n p d i).2 = .middle → Neighbour d (toMat n i) (toMat n (next n p d i).1)) := by
  rw [next_eq]
  refine ⟨stepV_middle_iff d h, fun hm => ?_⟩
  simp only [] at hm ⊢
  rw [toMat_toVec n _ (inGrid_of_inPart hp (stepV_inPart hp d h))]
  exact stepV_middle d hm

/-- A step that is not a global end is undone by the step in the reversed direction, which reports
the same kind of transition. -/
theorem C02_reverse_undoes (n : V3 Nat) (p : Partition) (hp : ValidPart n p) (d : Dir) (i : Nat)
    (h : InPart p (toMat n i)) (hg : (next n p d i).2 ≠ .globalEnd) :
    next n p (reverse d) (next n p d i).1 = (i, (next n p d i).2) := by
  have hg' : (stepV p d (toMat n i)).2 ≠ .globalEnd := by rw [next_eq] at hg; exact hg
  have e := next_eq n p d i
  have e1 : (next n p d i).1 = toVec n (stepV p d (toMat n i)).1 := by rw [e]
  have e2 : (next n p d i).2 = (stepV p d (toMat n i)).2 := by rw [e]
  rw [next_eq n p (reverse d), e1, e2, toMat_toVec n _ (inGrid_of_inPart hp (stepV_inPart hp d h)),
    stepV_reverse hp d h hg', toVec_toMat]

/-- The reversed direction is geometrically the opposite one. -/
theorem C02_reverse_is_opposite (d : Dir) : Opposite d (reverse d) := by
  intro v w
  cases d <;> simp only [reverse, Neighbour] <;> constructor <;> intro h <;>
    (refine ⟨?_, ?_, ?_⟩ <;> omega)

/-- The whole grid is a valid partition that contains every cell. -/
theorem C02_global_partition (n : V3 Nat) (h : 0 < numElements n) :
    ValidPart n (globalPartition n) ∧ ∀ v, InGrid n v ↔ InPart (globalPartition n) v := by
  obtain ⟨h1, h2, h3⟩ := pos_of_lt_num h
  refine ⟨⟨⟨by simp [globalPartition], by simp [globalPartition]; omega⟩,
    ⟨by simp [globalPartition], by simp [globalPartition]; omega⟩,
    ⟨by simp [globalPartition], by simp [globalPartition]; omega⟩⟩, fun v => ?_⟩
  unfold InGrid InPart globalPartition
  simp only []
  omega

example : ValidPart ⟨4, 3, 2⟩ ⟨⟨1, 0, 0⟩, ⟨2, 2, 1⟩⟩ ∧ InPart ⟨⟨1, 0, 0⟩, ⟨2, 2, 1⟩⟩ (toMat ⟨4, 3, 2⟩ 2) ∧
    next ⟨4, 3, 2⟩ ⟨⟨1, 0, 0⟩, ⟨2, 2, 1⟩⟩ .xf 1 = (2, .middle) ∧
    next ⟨4, 3, 2⟩ ⟨⟨1, 0, 0⟩, ⟨2, 2, 1⟩⟩ .xf 2 = (5, .localEnd) ∧
    next ⟨4, 3, 2⟩ ⟨⟨1, 0, 0⟩, ⟨2, 2, 1⟩⟩ .xb 5 = (2, .localEnd) := by decide

/-! ## C03 Walks -/

/-- Walking from the start corner visits every cell of the partition exactly once and then reports
the global end; as many steps as there are cells suffice. -/
theorem C03_walk_visits_all_once (n : V3 Nat) (p : Partition) (hp : ValidPart n p) (d : Dir)
    (fuel : Nat)
    (hfuel : (p.second.x - p.first.x + 1) * (p.second.y - p.first.y + 1) *
      (p.second.z - p.first.z + 1) ≤ fuel) :
    let w := walk n p d fuel (toVec n (startCorner p d))
    w.2 = true ∧ w.1.Nodup ∧
      ∀ v : V3 Nat, InGrid n v → (toVec n v ∈ w.1 ↔ InPart p v) := by
  have hs := start_inPart hp d
  have hg := inGrid_of_inPart hp hs
  obtain ⟨h1, h2, h3⟩ := walk_from n p hp d fuel (toVec n (startCorner p d)) (toVec_lt n _ hg)
    (by rw [toMat_toVec n _ hg]; exact hs)
    (by rw [toMat_toVec n _ hg, rank_start hp d]; unfold total wx wy wz; omega)
  refine ⟨h1, h3, fun v hv => ?_⟩
  rw [h2, toMat_toVec n v hv, toMat_toVec n _ hg, rank_start hp d]
  exact ⟨fun h => h.2.1, fun h => ⟨toVec_lt n v hv, h, Nat.zero_le _⟩⟩

/-- The walk contains only cells of the grid. -/
theorem C03_walk_in_grid (n : V3 Nat) (p : Partition) (hp : ValidPart n p) (d : Dir)
    (fuel : Nat)
    (hfuel : (p.second.x - p.first.x + 1) * (p.second.y - p.first.y + 1) *
      (p.second.z - p.first.z + 1) ≤ fuel) (j : Nat)
    (hj : j ∈ (walk n p d fuel (toVec n (startCorner p d))).1) : j < numElements n := by
  have hs := start_inPart hp d
  have hg := inGrid_of_inPart hp hs
  obtain ⟨_, h2, _⟩ := walk_from n p hp d fuel (toVec n (startCorner p d)) (toVec_lt n _ hg)
    (by rw [toMat_toVec n _ hg]; exact hs)
    (by rw [toMat_toVec n _ hg, rank_start hp d]; unfold total wx wy wz; omega)
  exact ((h2 j).mp hj).1

/-- A global end is reported only at the corner opposite to the start. -/
theorem C03_global_end_iff_last (n : V3 Nat) (p : Partition) (hp : ValidPart n p) (d : Dir) (i : Nat)
    (h : InPart p (toMat n i)) :
    (next n p d i).2 = .globalEnd ↔ toMat n i = startCorner p (reverse d) := by
  rw [next_eq]
  constructor
  · intro hg; exact (stepV_global hp d h hg).2
  · intro he
    by_contra hg
    have h1 := stepV_rank hp d h hg
    have h2 := rank_lt hp d (stepV_inPart hp d h)
    have h3 := rank_last hp d
    rw [← he] at h3
    omega

example : walk ⟨2, 2, 2⟩ (globalPartition ⟨2, 2, 2⟩) .yb 8
    (toVec ⟨2, 2, 2⟩ (startCorner (globalPartition ⟨2, 2, 2⟩) .yb)) = ([7, 5, 6, 4, 3, 1, 2, 0], true) ∧
    ValidPart ⟨2, 2, 2⟩ (globalPartition ⟨2, 2, 2⟩) := by decide

/-! ## C04 End test -/

/-- `IsEnd` is true exactly when the step does not report 'middle', i.e. exactly when there is no
neighbour in that direction. -/
theorem C04_isEnd_iff (n : V3 Nat) (p : Partition) (hp : ValidPart n p) (d : Dir) (i : Nat)
    (h : InPart p (toMat n i)) :
    (isEnd n p d i = true ↔ (next n p d i).2 ≠ .middle) ∧
    (isEnd n p d i = true ↔ ¬ ∃ w, InPart p w ∧ Neighbour d (toMat n i) w) := by
  have e := isEnd_iff n d i h
  refine ⟨by rw [next_eq]; exact e, ?_⟩
  have := (C02_middle_is_neighbour n p hp d i h).1
  rw [next_eq] at this
  rw [e, ← this]

example : isEnd ⟨4, 3, 2⟩ (globalPartition ⟨4, 3, 2⟩) .xf 3 = true ∧
    isEnd ⟨4, 3, 2⟩ (globalPartition ⟨4, 3, 2⟩) .xf 2 = false := by decide

/-- The list of directions that callers iterate over contains each of the six directions exactly
once. -/
theorem C04_directions_complete (d : Dir) : directions.count d = 1 ∧ directions.length = 6 := by
  cases d <;> decide

/-! ## C05 Cells tile the domain -/
section Boxes
variable {K : Type _} [Field K] [LinearOrder K] [IsStrictOrderedRing K]

/-- Every point of the domain lies in the box of some cell, and every point not on an upper face
lies in the half-open box of exactly one cell. -/
theorem C05_cover (n : V3 Nat) (hn : 0 < numElements n) (dom : Box K) (hd : ProperBox dom) (q : V3 K) :
    (InBox dom q → ∃ i, i < numElements n ∧ InBox (boxXYZ n dom i) q) ∧
    (InBoxHalfOpen dom q → ∃! i, i < numElements n ∧ InBoxHalfOpen (boxXYZ n dom i) q) := by
  obtain ⟨h1, h2, h3⟩ := pos_of_lt_num hn
  obtain ⟨d1, d2, d3⟩ := hd
  have e1 := delta_mul d1.le h1
  have e2 := delta_mul d2.le h2
  have e3 := delta_mul d3.le h3
  constructor
  · rintro ⟨⟨a1, a2⟩, ⟨b1, b2⟩, ⟨c1, c2⟩⟩
    obtain ⟨kx, hkx, x1, x2⟩ := exists_slot_closed (delta dom.lower.x dom.upper.x n.x) (q.x - dom.lower.x) n.x
      h1 (by linarith) (by linarith)
    obtain ⟨ky, hky, y1, y2⟩ := exists_slot_closed (delta dom.lower.y dom.upper.y n.y) (q.y - dom.lower.y) n.y
      h2 (by linarith) (by linarith)
    obtain ⟨kz, hkz, z1, z2⟩ := exists_slot_closed (delta dom.lower.z dom.upper.z n.z) (q.z - dom.lower.z) n.z
      h3 (by linarith) (by linarith)
    have hg : InGrid n ⟨kx, ky, kz⟩ := ⟨hkx, hky, hkz⟩
    refine ⟨toVec n ⟨kx, ky, kz⟩, toVec_lt n _ hg, ?_⟩
    rw [boxXYZ, toMat_toVec n _ hg]
    refine ⟨⟨?_, ?_⟩, ⟨?_, ?_⟩, ⟨?_, ?_⟩⟩ <;> simp only [cellBox] <;> linarith
  · rintro ⟨⟨a1, a2⟩, ⟨b1, b2⟩, ⟨c1, c2⟩⟩
    obtain ⟨kx, hkx, x1, x2⟩ := exists_slot (delta dom.lower.x dom.upper.x n.x) (q.x - dom.lower.x) n.x
      (by linarith) (by linarith)
    obtain ⟨ky, hky, y1, y2⟩ := exists_slot (delta dom.lower.y dom.upper.y n.y) (q.y - dom.lower.y) n.y
      (by linarith) (by linarith)
    obtain ⟨kz, hkz, z1, z2⟩ := exists_slot (delta dom.lower.z dom.upper.z n.z) (q.z - dom.lower.z) n.z
      (by linarith) (by linarith)
    have hg : InGrid n ⟨kx, ky, kz⟩ := ⟨hkx, hky, hkz⟩
    refine ⟨toVec n ⟨kx, ky, kz⟩, ⟨toVec_lt n _ hg, ?_⟩, ?_⟩
    · rw [boxXYZ, toMat_toVec n _ hg]
      refine ⟨⟨?_, ?_⟩, ⟨?_, ?_⟩, ⟨?_, ?_⟩⟩ <;> simp only [cellBox] <;> linarith
    · rintro j ⟨_, ⟨⟨u1, u2⟩, ⟨v1, v2⟩, ⟨w1, w2⟩⟩⟩
      simp only [boxXYZ, cellBox] at u1 u2 v1 v2 w1 w2
      have ex := slot_unique_half _ (delta_pos d1 h1) (q.x - dom.lower.x) kx (toMat n j).x x1 x2
        (by linarith) (by linarith)
      have ey := slot_unique_half _ (delta_pos d2 h2) (q.y - dom.lower.y) ky (toMat n j).y y1 y2
        (by linarith) (by linarith)
      have ez := slot_unique_half _ (delta_pos d3 h3) (q.z - dom.lower.z) kz (toMat n j).z z1 z2
        (by linarith) (by linarith)
      rw [← toVec_toMat n j]
      congr 1
      exact V3.ext' ex.symm ey.symm ez.symm

/-- Cell boxes lie in the domain. -/
theorem C05_inside (n : V3 Nat) (dom : Box K) (hd : ProperBox dom) (i : Nat) (hi : i < numElements n)
    (q : V3 K) (hq : InBox (boxXYZ n dom i) q) : InBox dom q := by
  obtain ⟨h1, h2, h3⟩ := pos_of_lt_num hi
  obtain ⟨g1, g2, g3⟩ := toMat_inGrid n i hi
  obtain ⟨d1, d2, d3⟩ := hd
  have key : ∀ {lo up : K} {m k : Nat}, lo < up → 0 < m → k < m →
      0 ≤ delta lo up m * (k : K) ∧ delta lo up m * (1 + (k : K)) ≤ up - lo := by
    intro lo up m k hl hm hk
    have hp := delta_pos hl hm
    refine ⟨by positivity, ?_⟩
    rw [← delta_mul hl.le hm]
    apply mul_le_mul_of_nonneg_left _ hp.le
    have : 1 + k ≤ m := by omega
    exact_mod_cast this
  obtain ⟨⟨a1, a2⟩, ⟨b1, b2⟩, ⟨c1, c2⟩⟩ := hq
  simp only [boxXYZ, cellBox] at a1 a2 b1 b2 c1 c2
  obtain ⟨kx1, kx2⟩ := key d1 h1 g1
  obtain ⟨ky1, ky2⟩ := key d2 h2 g2
  obtain ⟨kz1, kz2⟩ := key d3 h3 g3
  refine ⟨⟨?_, ?_⟩, ⟨?_, ?_⟩, ⟨?_, ?_⟩⟩ <;> linarith

/-- Different cells have disjoint interiors. -/
theorem C05_disjoint (n : V3 Nat) (dom : Box K) (hd : ProperBox dom) (i j : Nat)
    (hi : i < numElements n) (q : V3 K)
    (h1 : InBoxInterior (boxXYZ n dom i) q) (h2 : InBoxInterior (boxXYZ n dom j) q) : i = j := by
  obtain ⟨g1, g2, g3⟩ := pos_of_lt_num hi
  obtain ⟨d1, d2, d3⟩ := hd
  obtain ⟨⟨a1, a2⟩, ⟨b1, b2⟩, ⟨c1, c2⟩⟩ := h1
  obtain ⟨⟨u1, u2⟩, ⟨v1, v2⟩, ⟨w1, w2⟩⟩ := h2
  simp only [boxXYZ, cellBox] at *
  have ex := slot_unique _ (delta_pos d1 g1) (q.x - dom.lower.x) (toMat n i).x (toMat n j).x
    (by linarith) (by linarith) (by linarith) (by linarith)
  have ey := slot_unique _ (delta_pos d2 g2) (q.y - dom.lower.y) (toMat n i).y (toMat n j).y
    (by linarith) (by linarith) (by linarith) (by linarith)
  have ez := slot_unique _ (delta_pos d3 g3) (q.z - dom.lower.z) (toMat n i).z (toMat n j).z
    (by linarith) (by linarith) (by linarith) (by linarith)
  rw [← toVec_toMat n i, ← toVec_toMat n j, V3.ext' ex ey ez]

omit [IsStrictOrderedRing K] in
/-- Face-adjacent cells share exactly the same face coordinate and have the same extent in the other
two directions. -/
theorem C05_shared_face (n : V3 Nat) (dom : Box K) (v w : V3 Nat) :
    (Neighbour .xf v w → (cellBox n dom v).upper.x = (cellBox n dom w).lower.x ∧
      (cellBox n dom v).lower.y = (cellBox n dom w).lower.y ∧ (cellBox n dom v).upper.y = (cellBox n dom w).upper.y ∧
      (cellBox n dom v).lower.z = (cellBox n dom w).lower.z ∧ (cellBox n dom v).upper.z = (cellBox n dom w).upper.z) ∧
    (Neighbour .yf v w → (cellBox n dom v).upper.y = (cellBox n dom w).lower.y ∧
      (cellBox n dom v).lower.x = (cellBox n dom w).lower.x ∧ (cellBox n dom v).upper.x = (cellBox n dom w).upper.x ∧
      (cellBox n dom v).lower.z = (cellBox n dom w).lower.z ∧ (cellBox n dom v).upper.z = (cellBox n dom w).upper.z) ∧
    (Neighbour .zf v w → (cellBox n dom v).upper.z = (cellBox n dom w).lower.z ∧
      (cellBox n dom v).lower.x = (cellBox n dom w).lower.x ∧ (cellBox n dom v).upper.x = (cellBox n dom w).upper.x ∧
      (cellBox n dom v).lower.y = (cellBox n dom w).lower.y ∧ (cellBox n dom v).upper.y = (cellBox n dom w).upper.y) := by
  refine ⟨?_, ?_, ?_⟩ <;> rintro ⟨h1, h2, h3⟩ <;> simp only [cellBox, h1, h2, h3] <;> push_cast <;>
    refine ⟨by ring, trivial, trivial, trivial, trivial⟩

/-- The cell volumes add up to the domain volume. -/
theorem C05_volume_sum (n : V3 Nat) (hn : 0 < numElements n) (dom : Box K) (hd : ProperBox dom) :
    ∑ i ∈ Finset.range (numElements n), boxVolume (boxXYZ n dom i) = boxVolume dom := by
  obtain ⟨h1, h2, h3⟩ := pos_of_lt_num hn
  obtain ⟨d1, d2, d3⟩ := hd
  simp only [boxXYZ, cellBox_volume, Finset.sum_const, Finset.card_range, nsmul_eq_mul, numElements]
  unfold boxVolume
  rw [← delta_mul d1.le h1, ← delta_mul d2.le h2, ← delta_mul d3.le h3]
  push_cast
  ring

omit [IsStrictOrderedRing K] in
/-- In parametric space a B-spline grid is tiled in the same way, every cell of any other grid gets
the whole parametric box. -/
theorem C05_uvw (n : V3 Nat) (dom : Box K) (i : Nat) :
    boxUVW n dom true i = boxXYZ n dom i ∧ boxUVW n dom false i = dom := by
  simp [boxUVW, boxXYZ]

example : ProperBox (⟨⟨-1, 0, 2⟩, ⟨2, 1, 5⟩⟩ : Box ℚ) ∧ 0 < numElements ⟨3, 2, 4⟩ ∧
    InBoxHalfOpen (⟨⟨-1, 0, 2⟩, ⟨2, 1, 5⟩⟩ : Box ℚ) ⟨0, 1/2, 3⟩ := by
  refine ⟨⟨?_, ?_, ?_⟩, by decide, ⟨?_, ?_⟩, ⟨?_, ?_⟩, ⟨?_, ?_⟩⟩ <;> norm_num

/-- The bounds are not checked to be ordered: with exchanged bounds the cells leave the domain
(`std::abs` in the cell size), so the hypothesis `ProperBox` is needed. -/
theorem C05_needs_ordered_bounds :
    ∃ (n : V3 Nat) (lo up : ℚ), up < lo ∧ 0 < numElements n ∧
      ¬ (boxXYZ n ⟨⟨lo, lo, lo⟩, ⟨up, up, up⟩⟩ 0).upper.x ≤ max lo up := by
  refine ⟨⟨1, 1, 1⟩, 1, 0, by norm_num, by decide, ?_⟩
  simp [boxXYZ, cellBox, delta, toMat]

end Boxes
end QuESo.Props
