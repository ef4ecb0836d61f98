import Verif.Proofs.Rounding
import Verif.Proofs.GridIndexer
import Verif.Spec.Geometry

/-!
# C111: the boxes of the cells in floating-point arithmetic
-/
namespace QuESo.Props
open QuESo.Spec QuESo.Round

section
variable {K : Type _} [Field K] [LinearOrder K] [IsStrictOrderedRing K]
variable {rnd : K → K} {eps : K} {big : Nat}

theorem deltaR_nonneg (hr : IsRounding rnd eps big) (lo up : K) (n : Nat) : 0 ≤ deltaR rnd lo up n := by
  have h0 : rnd 0 = 0 := by simpa using hr.whole 0 (Nat.zero_le _)
  have h := hr.mono 0 (|rnd (up - lo)| / (n : K)) (div_nonneg (abs_nonneg _) (Nat.cast_nonneg _))
  rw [h0] at h; exact h

theorem faceR_mono (hr : IsRounding rnd eps big) (fused : Bool) (lo up : K) (n : Nat) {x y : K} (h : x ≤ y) :
    faceR rnd fused lo up n x ≤ faceR rnd fused lo up n y := by
  have hd := deltaR_nonneg hr lo up n
  have hm := mul_le_mul_of_nonneg_left h hd
  unfold faceR
  split
  · exact hr.mono _ _ (by linarith)
  · have := hr.mono _ _ hm
    exact hr.mono _ _ (by linarith)

theorem upperR_eq (hr : IsRounding rnd eps big) (fused : Bool) (lo up : K) (n : Nat) {i : Nat} (hi : i < big) :
    upperR rnd fused lo up n i = lowerR rnd fused lo up n (i + 1) := by
  unfold upperR lowerR
  rw [hr.whole i hi.le, hr.whole (i + 1) hi]
  have := hr.whole (i + 1) hi
  push_cast at this ⊢
  rw [add_comm (1 : K), this]

theorem lowerR_mono (hr : IsRounding rnd eps big) (fused : Bool) (lo up : K) (n : Nat) {i j : Nat} (h : i ≤ j) :
    lowerR rnd fused lo up n i ≤ lowerR rnd fused lo up n j :=
  faceR_mono hr fused lo up n (hr.mono _ _ (by exact_mod_cast h))

/-- Half-open interval of a cell. -/
theorem exists_cell (f : Nat → K) (hm : ∀ i j, i ≤ j → f i ≤ f j) (n : Nat) (p : K) (h0 : f 0 ≤ p) (h1 : p < f n) :
    ∃ i < n, f i ≤ p ∧ p < f (i + 1) := by
  induction n with
  | zero => exact absurd h0 (not_le.mpr h1)
  | succ n ih =>
    rcases lt_or_ge p (f n) with h | h
    · obtain ⟨i, hi, h2⟩ := ih h
      exact ⟨i, by omega, h2⟩
    · exact ⟨n, by omega, h, h1⟩

theorem unique_cell (f : Nat → K) (hm : ∀ i j, i ≤ j → f i ≤ f j) (p : K) {i j : Nat} (hi : f i ≤ p ∧ p < f (i + 1)) (hj : f j ≤ p ∧ p < f (j + 1)) : i = j := by
  rcases Nat.lt_trichotomy i j with h | h | h
  · have := hm (i + 1) j h
    exact absurd (hi.2.trans_le this) (not_lt.mpr hj.1)
  · exact h
  · have := hm (j + 1) i h
    exact absurd (hj.2.trans_le this) (not_lt.mpr hi.1)

/-- In one direction: the lower end of cell `i`, computed by the program, is within `5 eps (|lo| + |up|)` of the exact position. -/
theorem lowerR_error (hr : IsRounding rnd eps big) (heps : eps ≤ 1 / 100) (fused : Bool) (lo up : K) (hlu : lo ≤ up) (n i : Nat) (hn : 0 < n) (hin : i ≤ n) (hb : n ≤ big) :
    |lowerR rnd fused lo up n i - (lo + (up - lo) * i / n)| ≤ 5 * eps * (|lo| + |up|) := by
  have he : 0 ≤ eps := by
    have := hr.error 1
    rw [abs_one, mul_one] at this
    exact (abs_nonneg _).trans this
  have hA : 0 ≤ up - lo := by linarith
  have hM : up - lo ≤ |lo| + |up| := by
    have := le_abs_self up
    have := neg_abs_le lo
    linarith
  have hn' : (0 : K) < n := by exact_mod_cast hn
  -- the quotient `q = i / n`
  have hq0 : (0 : K) ≤ (i : K) / n := by positivity
  have hq1 : (i : K) / n ≤ 1 := by rw [div_le_one hn']; exact_mod_cast hin
  -- first rounding
  have e1 := hr.error (up - lo)
  rw [abs_of_nonneg hA] at e1
  have h0 : rnd 0 = 0 := by simpa using hr.whole 0 (Nat.zero_le _)
  have hr1 : 0 ≤ rnd (up - lo) := by have := hr.mono _ _ hA; rwa [h0] at this
  -- second
  have e2 := hr.error (rnd (up - lo) / n)
  have hd2 : 0 ≤ rnd (up - lo) / (n : K) := div_nonneg hr1 hn'.le
  rw [abs_of_nonneg hd2] at e2
  have hdelta : deltaR rnd lo up n = rnd (rnd (up - lo) / n) := by unfold deltaR; rw [abs_of_nonneg hr1]
  have hd : 0 ≤ deltaR rnd lo up n := deltaR_nonneg hr lo up n
  -- the product
  have hP : |deltaR rnd lo up n * i - (up - lo) * i / n| ≤ (2 * eps + eps * eps) * (up - lo) := by
    rw [hdelta]
    have hi0 : (0 : K) ≤ i := Nat.cast_nonneg i
    rw [abs_le] at e1 e2
    have m2 : (rnd (up - lo) / n) * i = rnd (up - lo) * ((i : K) / n) := by ring
    have m1 : (up - lo) * i / n = (up - lo) * ((i : K) / n) := by ring
    have a1 := mul_le_mul_of_nonneg_right e2.1 hi0
    have a2 := mul_le_mul_of_nonneg_right e2.2 hi0
    have b1 := mul_le_mul_of_nonneg_right e1.1 hq0
    have b2 := mul_le_mul_of_nonneg_right e1.2 hq0
    have c1 : rnd (up - lo) * ((i : K) / n) ≤ rnd (up - lo) * 1 := mul_le_mul_of_nonneg_left hq1 hr1
    have c2 : (up - lo) * ((i : K) / n) ≤ (up - lo) * 1 := mul_le_mul_of_nonneg_left hq1 hA
    have c3 : eps * (rnd (up - lo) * ((i : K) / n)) ≤ eps * (rnd (up - lo) * 1) := mul_le_mul_of_nonneg_left c1 he
    have c4 : eps * ((up - lo) * ((i : K) / n)) ≤ eps * ((up - lo) * 1) := mul_le_mul_of_nonneg_left c2 he
    have c5 : eps * rnd (up - lo) ≤ eps * ((1 + eps) * (up - lo)) := mul_le_mul_of_nonneg_left (by linarith) he
    rw [m1, abs_le]
    constructor <;> nlinarith
  set P := deltaR rnd lo up n * (i : K) with hPdef
  have hP0 : 0 ≤ P := mul_nonneg hd (Nat.cast_nonneg i)
  have hX : (up - lo) * i / n ≤ up - lo := by
    have : (up - lo) * i / n = (up - lo) * ((i : K) / n) := by ring
    rw [this]; simpa using mul_le_mul_of_nonneg_left hq1 hA
  have hX0 : 0 ≤ (up - lo) * i / n := by positivity
  -- the exact sum is bounded by the ends of the box
  have hsum : |lo + (up - lo) * i / n| ≤ |lo| + |up| := by
    rw [abs_le]
    have := neg_abs_le lo
    have := le_abs_self up
    have := abs_nonneg lo
    have := abs_nonneg up
    constructor <;> linarith
  have hS0 : 0 ≤ |lo| + |up| := by positivity
  have hee : eps * eps ≤ 1 / 100 * eps := mul_le_mul_of_nonneg_right heps he
  have hidx : rnd (i : K) = i := hr.whole i (hin.trans hb)
  -- the product after its own rounding
  have key : ∀ Q : K, |Q - P| ≤ eps * P → |rnd (lo + Q) - (lo + (up - lo) * i / n)| ≤ 5 * eps * (|lo| + |up|) := by
    intro Q hQ
    have e3 := hr.error (lo + Q)
    set X := (up - lo) * i / n with hXdef
    set M := |lo| + |up| with hMdef
    rw [abs_le] at hP hQ
    have hPle : P ≤ (1 + (2 * eps + eps * eps)) * (up - lo) := by linarith [hP.2]
    have h4 : (2 * eps + eps * eps) * (up - lo) ≤ (2 * eps + 1 / 100 * eps) * M := by
      have s1 : (2 * eps + eps * eps) * (up - lo) ≤ (2 * eps + eps * eps) * M := mul_le_mul_of_nonneg_left hM (by positivity)
      have s2 : (2 * eps + eps * eps) * M ≤ (2 * eps + 1 / 100 * eps) * M := mul_le_mul_of_nonneg_right (by linarith) hS0
      linarith
    have h5 : P ≤ (1 + (2 / 100 + 1 / 10000)) * M := by
      have s1 : (2 * eps + 1 / 100 * eps) * M ≤ (2 / 100 + 1 / 10000) * M := mul_le_mul_of_nonneg_right (by linarith) hS0
      linarith [hP.2]
    have h6 : eps * P ≤ eps * ((1 + (2 / 100 + 1 / 10000)) * M) := mul_le_mul_of_nonneg_left h5 he
    have hQX : |Q - X| ≤ (2 * eps + 1 / 100 * eps) * M + eps * ((1 + (2 / 100 + 1 / 10000)) * M) := by
      rw [abs_le]; constructor <;> linarith [hP.1, hP.2, hQ.1, hQ.2]
    have hQX' : |Q - X| ≤ 31 / 10 * (eps * M) := by
      have : 0 ≤ eps * M := mul_nonneg he hS0
      have e : (2 * eps + 1 / 100 * eps) * M + eps * ((1 + (2 / 100 + 1 / 10000)) * M) = (2 + 1 / 100 + (1 + (2 / 100 + 1 / 10000))) * (eps * M) := by ring
      rw [e] at hQX
      have : (2 + 1 / 100 + (1 + (2 / 100 + 1 / 10000))) * (eps * M) ≤ 31 / 10 * (eps * M) := mul_le_mul_of_nonneg_right (by norm_num) this
      linarith
    have habs : |lo + Q| ≤ M + |Q - X| := by
      have : lo + Q = (lo + X) + (Q - X) := by ring
      rw [this]
      exact (abs_add_le _ _).trans (by linarith)
    have h7 : eps * |lo + Q| ≤ eps * (M + |Q - X|) := mul_le_mul_of_nonneg_left habs he
    have h8 : eps * |Q - X| ≤ 1 / 100 * |Q - X| := mul_le_mul_of_nonneg_right heps (abs_nonneg _)
    have : rnd (lo + Q) - (lo + X) = (rnd (lo + Q) - (lo + Q)) + (Q - X) := by ring
    rw [this]
    refine (abs_add_le _ _).trans ?_
    have hem : 0 ≤ eps * M := mul_nonneg he hS0
    rw [mul_add] at h7
    rw [mul_assoc]
    linarith
  unfold lowerR faceR
  rw [hidx]
  split
  · exact key P (by rw [sub_self, abs_zero]; exact mul_nonneg he hP0)
  · refine key _ ?_
    have := hr.error P
    rwa [abs_of_nonneg hP0] at this

/-- The face between two cells and the ends of the row, as a list of positions. -/
theorem cell_bounds (hr : IsRounding rnd eps big) (fused : Bool) (lo up : K) {n i : Nat} (hi : i < n) (hb : n ≤ big) :
    upperR rnd fused lo up n i = lowerR rnd fused lo up n (i + 1) := upperR_eq hr fused lo up n (by omega)

/-- **C111** (no gaps, no overlaps between neighbours).  For every machine arithmetic, also one that rounds products and sums at once, and for every grid whose numbers of cells are whole
numbers of the machine: two cells that are neighbours in a direction have exactly the same coordinate on their common face, and exactly the same extent in the other directions. -/
theorem C111_shared_face (hr : IsRounding rnd eps big) (fused : Bool) (n : V3 Nat) (hn : n.x ≤ big ∧ n.y ≤ big ∧ n.z ≤ big) (dom : Box K) (v w : V3 Nat) (hv : InGrid n v) :
    (Neighbour .xf v w → (cellBoxR rnd fused n dom v).upper.x = (cellBoxR rnd fused n dom w).lower.x ∧
      (cellBoxR rnd fused n dom v).lower.y = (cellBoxR rnd fused n dom w).lower.y ∧ (cellBoxR rnd fused n dom v).upper.y = (cellBoxR rnd fused n dom w).upper.y ∧
      (cellBoxR rnd fused n dom v).lower.z = (cellBoxR rnd fused n dom w).lower.z ∧ (cellBoxR rnd fused n dom v).upper.z = (cellBoxR rnd fused n dom w).upper.z) ∧
    (Neighbour .yf v w → (cellBoxR rnd fused n dom v).upper.y = (cellBoxR rnd fused n dom w).lower.y ∧
      (cellBoxR rnd fused n dom v).lower.x = (cellBoxR rnd fused n dom w).lower.x ∧ (cellBoxR rnd fused n dom v).upper.x = (cellBoxR rnd fused n dom w).upper.x ∧
      (cellBoxR rnd fused n dom v).lower.z = (cellBoxR rnd fused n dom w).lower.z ∧ (cellBoxR rnd fused n dom v).upper.z = (cellBoxR rnd fused n dom w).upper.z) ∧
    (Neighbour .zf v w → (cellBoxR rnd fused n dom v).upper.z = (cellBoxR rnd fused n dom w).lower.z ∧
      (cellBoxR rnd fused n dom v).lower.x = (cellBoxR rnd fused n dom w).lower.x ∧ (cellBoxR rnd fused n dom v).upper.x = (cellBoxR rnd fused n dom w).upper.x ∧
      (cellBoxR rnd fused n dom v).lower.y = (cellBoxR rnd fused n dom w).lower.y ∧ (cellBoxR rnd fused n dom v).upper.y = (cellBoxR rnd fused n dom w).upper.y) := by
  obtain ⟨b1, b2, b3⟩ := hn
  obtain ⟨g1, g2, g3⟩ := hv
  refine ⟨?_, ?_, ?_⟩ <;> rintro ⟨h1, h2, h3⟩ <;> simp only [cellBoxR, h1, h2, h3]
  · exact ⟨cell_bounds hr fused _ _ g1 b1, trivial, trivial, trivial, trivial⟩
  · exact ⟨cell_bounds hr fused _ _ g2 b2, trivial, trivial, trivial, trivial⟩
  · exact ⟨cell_bounds hr fused _ _ g3 b3, trivial, trivial, trivial, trivial⟩

/-- **C111** (the cells tile the box they span).  For every machine arithmetic: no cell is turned inside out, and every point from the first corner of the first cell to the last corner of the last
cell is in exactly one cell (cells without their upper faces). -/
theorem C111_tile (hr : IsRounding rnd eps big) (fused : Bool) (n : V3 Nat) (hn : n.x ≤ big ∧ n.y ≤ big ∧ n.z ≤ big) (h0 : 0 < Grid.numElements n) (dom : Box K) :
    (∀ i < Grid.numElements n, (boxXYZR rnd fused n dom i).lower.x ≤ (boxXYZR rnd fused n dom i).upper.x ∧ (boxXYZR rnd fused n dom i).lower.y ≤ (boxXYZR rnd fused n dom i).upper.y ∧
      (boxXYZR rnd fused n dom i).lower.z ≤ (boxXYZR rnd fused n dom i).upper.z) ∧
    ∀ q : V3 K, InBoxHalfOpen ⟨(boxXYZR rnd fused n dom 0).lower, (boxXYZR rnd fused n dom (Grid.numElements n - 1)).upper⟩ q →
      ∃! i, i < Grid.numElements n ∧ InBoxHalfOpen (boxXYZR rnd fused n dom i) q := by
  obtain ⟨b1, b2, b3⟩ := hn
  have hpos : 0 < n.x ∧ 0 < n.y ∧ 0 < n.z := by
    have h0' : 0 < n.x * n.y * n.z := h0
    refine ⟨Nat.pos_of_ne_zero ?_, Nat.pos_of_ne_zero ?_, Nat.pos_of_ne_zero ?_⟩ <;> (intro h; simp [h] at h0')
  obtain ⟨p1, p2, p3⟩ := hpos
  constructor
  · intro i hi
    obtain ⟨g1, g2, g3⟩ := Grid.toMat_inGrid n i hi
    simp only [boxXYZR, cellBoxR]
    rw [cell_bounds hr fused _ _ g1 b1, cell_bounds hr fused _ _ g2 b2, cell_bounds hr fused _ _ g3 b3]
    exact ⟨lowerR_mono hr fused _ _ _ (by omega), lowerR_mono hr fused _ _ _ (by omega), lowerR_mono hr fused _ _ _ (by omega)⟩
  · intro q hq
    have hz : Grid.toMat n 0 = ⟨0, 0, 0⟩ := by
      have := Grid.toMat_toVec n ⟨0, 0, 0⟩ ⟨p1, p2, p3⟩
      simpa [Grid.toVec] using this
    have hlast : Grid.toMat n (Grid.numElements n - 1) = ⟨n.x - 1, n.y - 1, n.z - 1⟩ := by
      have hin : InGrid n ⟨n.x - 1, n.y - 1, n.z - 1⟩ := by unfold InGrid; simp only; omega
      have h1 := Grid.toMat_toVec n _ hin
      have : Grid.toVec n ⟨n.x - 1, n.y - 1, n.z - 1⟩ = Grid.numElements n - 1 := by
        obtain ⟨a, ha⟩ := Nat.exists_eq_succ_of_ne_zero p1.ne'
        obtain ⟨b, hb⟩ := Nat.exists_eq_succ_of_ne_zero p2.ne'
        obtain ⟨c, hc⟩ := Nat.exists_eq_succ_of_ne_zero p3.ne'
        simp only [Grid.toVec, Grid.numElements, ha, hb, hc, Nat.succ_eq_add_one, Nat.add_sub_cancel]
        have : (a + 1) * (b + 1) * (c + 1) = (a + b * (a + 1) + c * (b + 1) * (a + 1)) + 1 := by ring
        rw [this, Nat.add_sub_cancel]
        ring
      rw [← this]; exact h1
    simp only [boxXYZR, hz, hlast, cellBoxR, InBoxHalfOpen] at hq ⊢
    rw [cell_bounds hr fused _ _ (show n.x - 1 < n.x by omega) b1, cell_bounds hr fused _ _ (show n.y - 1 < n.y by omega) b2, cell_bounds hr fused _ _ (show n.z - 1 < n.z by omega) b3,
      Nat.sub_add_cancel p1, Nat.sub_add_cancel p2, Nat.sub_add_cancel p3] at hq
    obtain ⟨⟨x0, x1⟩, ⟨y0, y1⟩, ⟨z0, z1⟩⟩ := hq
    obtain ⟨kx, hkx, hx⟩ := exists_cell _ (fun i j h => lowerR_mono hr fused dom.lower.x dom.upper.x n.x h) n.x q.x x0 x1
    obtain ⟨ky, hky, hy⟩ := exists_cell _ (fun i j h => lowerR_mono hr fused dom.lower.y dom.upper.y n.y h) n.y q.y y0 y1
    obtain ⟨kz, hkz, hz'⟩ := exists_cell _ (fun i j h => lowerR_mono hr fused dom.lower.z dom.upper.z n.z h) n.z q.z z0 z1
    have hin : InGrid n ⟨kx, ky, kz⟩ := ⟨hkx, hky, hkz⟩
    refine ⟨Grid.toVec n ⟨kx, ky, kz⟩, ⟨Grid.toVec_lt n _ hin, ?_⟩, ?_⟩
    · rw [Grid.toMat_toVec n _ hin]
      simp only
      rw [cell_bounds hr fused _ _ hkx b1, cell_bounds hr fused _ _ hky b2, cell_bounds hr fused _ _ hkz b3]
      exact ⟨hx, hy, hz'⟩
    · rintro j ⟨hj, hj1, hj2, hj3⟩
      obtain ⟨g1, g2, g3⟩ := Grid.toMat_inGrid n j hj
      rw [cell_bounds hr fused _ _ g1 b1] at hj1
      rw [cell_bounds hr fused _ _ g2 b2] at hj2
      rw [cell_bounds hr fused _ _ g3 b3] at hj3
      have e1 := unique_cell _ (fun i j h => lowerR_mono hr fused dom.lower.x dom.upper.x n.x h) q.x hx hj1
      have e2 := unique_cell _ (fun i j h => lowerR_mono hr fused dom.lower.y dom.upper.y n.y h) q.y hy hj2
      have e3 := unique_cell _ (fun i j h => lowerR_mono hr fused dom.lower.z dom.upper.z n.z h) q.z hz' hj3
      rw [← Grid.toVec_toMat n j]
      congr 1
      rw [e1, e2, e3]

/-- **C111** (where the cells begin).  If the lower corner of the box consists of numbers of the machine, the first cell begins exactly there. -/
theorem C111_begin (hr : IsRounding rnd eps big) (fused : Bool) (n : V3 Nat) (h0 : 0 < Grid.numElements n) (dom : Box K)
    (hl : rnd dom.lower.x = dom.lower.x ∧ rnd dom.lower.y = dom.lower.y ∧ rnd dom.lower.z = dom.lower.z) : (boxXYZR rnd fused n dom 0).lower = dom.lower := by
  have hpos : 0 < n.x ∧ 0 < n.y ∧ 0 < n.z := by
    have h0' : 0 < n.x * n.y * n.z := h0
    refine ⟨Nat.pos_of_ne_zero ?_, Nat.pos_of_ne_zero ?_, Nat.pos_of_ne_zero ?_⟩ <;> (intro h; simp [h] at h0')
  have hz : Grid.toMat n 0 = ⟨0, 0, 0⟩ := by
    have := Grid.toMat_toVec n ⟨0, 0, 0⟩ hpos
    simpa [Grid.toVec] using this
  have hr0 : rnd 0 = 0 := by simpa using hr.whole 0 (Nat.zero_le _)
  have key : ∀ lo up : K, ∀ m : Nat, rnd lo = lo → lowerR rnd fused lo up m 0 = lo := by
    intro lo up m h
    unfold lowerR faceR
    split <;> simp [hr0, h]
  simp only [boxXYZR, hz, cellBoxR]
  rw [key _ _ _ hl.1, key _ _ _ hl.2.1, key _ _ _ hl.2.2]

/-- **C111** (accuracy).  For every machine arithmetic with relative error at most `eps ≤ 1/100`: all faces of all cells, in particular the end of the last cell, are within
`5 eps (|lower| + |upper|)` of where they are in exact arithmetic. -/
theorem C111_error (hr : IsRounding rnd eps big) (heps : eps ≤ 1 / 100) (fused : Bool) (n : V3 Nat) (hn : n.x ≤ big ∧ n.y ≤ big ∧ n.z ≤ big) (dom : Box K) (hd : ProperBox dom)
    (i : Nat) (hi : i < Grid.numElements n) :
    (|(boxXYZR rnd fused n dom i).lower.x - (Grid.boxXYZ n dom i).lower.x| ≤ 5 * eps * (|dom.lower.x| + |dom.upper.x|) ∧
      |(boxXYZR rnd fused n dom i).upper.x - (Grid.boxXYZ n dom i).upper.x| ≤ 5 * eps * (|dom.lower.x| + |dom.upper.x|)) ∧
    (|(boxXYZR rnd fused n dom i).lower.y - (Grid.boxXYZ n dom i).lower.y| ≤ 5 * eps * (|dom.lower.y| + |dom.upper.y|) ∧
      |(boxXYZR rnd fused n dom i).upper.y - (Grid.boxXYZ n dom i).upper.y| ≤ 5 * eps * (|dom.lower.y| + |dom.upper.y|)) ∧
    (|(boxXYZR rnd fused n dom i).lower.z - (Grid.boxXYZ n dom i).lower.z| ≤ 5 * eps * (|dom.lower.z| + |dom.upper.z|) ∧
      |(boxXYZR rnd fused n dom i).upper.z - (Grid.boxXYZ n dom i).upper.z| ≤ 5 * eps * (|dom.lower.z| + |dom.upper.z|)) := by
  obtain ⟨b1, b2, b3⟩ := hn
  obtain ⟨d1, d2, d3⟩ := hd
  obtain ⟨g1, g2, g3⟩ := Grid.toMat_inGrid n i hi
  have key : ∀ lo up : K, ∀ m k : Nat, lo < up → k < m → m ≤ big →
      |lowerR rnd fused lo up m k - (lo + Grid.delta lo up m * (k : K))| ≤ 5 * eps * (|lo| + |up|) ∧
      |upperR rnd fused lo up m k - (lo + Grid.delta lo up m * (1 + (k : K)))| ≤ 5 * eps * (|lo| + |up|) := by
    intro lo up m k hlu hk hm
    have hA : |up - lo| = up - lo := abs_of_pos (by linarith)
    constructor
    · have h := lowerR_error hr heps fused lo up hlu.le m k (by omega) hk.le hm
      have e : lo + Grid.delta lo up m * (k : K) = lo + (up - lo) * k / m := by unfold Grid.delta; rw [hA]; ring
      rw [e]; exact h
    · rw [cell_bounds hr fused lo up hk hm]
      have h := lowerR_error hr heps fused lo up hlu.le m (k + 1) (by omega) hk hm
      have e : lo + Grid.delta lo up m * (1 + (k : K)) = lo + (up - lo) * ((k + 1 : ℕ) : K) / m := by unfold Grid.delta; rw [hA]; push_cast; ring
      rw [e]; exact h
  exact ⟨key _ _ _ _ d1 g1 b1, key _ _ _ _ d2 g2 b2, key _ _ _ _ d3 g3 b3⟩

/-- **C111** (partial: the cells have a positive size).  If the cells are, in each direction, larger than `10 eps (|lower| + |upper|)`, no computed cell is degenerate.
Missing: smaller cells, see `C111_size_false_of_code`. -/
theorem C111_size_partial (hr : IsRounding rnd eps big) (heps : eps ≤ 1 / 100) (fused : Bool) (n : V3 Nat) (hn : n.x ≤ big ∧ n.y ≤ big ∧ n.z ≤ big) (dom : Box K)
    (hx : 10 * eps * (|dom.lower.x| + |dom.upper.x|) < (dom.upper.x - dom.lower.x) / n.x) (hy : 10 * eps * (|dom.lower.y| + |dom.upper.y|) < (dom.upper.y - dom.lower.y) / n.y)
    (hz : 10 * eps * (|dom.lower.z| + |dom.upper.z|) < (dom.upper.z - dom.lower.z) / n.z) (i : Nat) (hi : i < Grid.numElements n) : ProperBox (boxXYZR rnd fused n dom i) := by
  obtain ⟨b1, b2, b3⟩ := hn
  obtain ⟨g1, g2, g3⟩ := Grid.toMat_inGrid n i hi
  have he : 0 ≤ eps := by
    have := hr.error 1
    rw [abs_one, mul_one] at this
    exact (abs_nonneg _).trans this
  have key : ∀ lo up : K, ∀ m k : Nat, k < m → m ≤ big → 10 * eps * (|lo| + |up|) < (up - lo) / m → lowerR rnd fused lo up m k < upperR rnd fused lo up m k := by
    intro lo up m k hk hm h
    have hm0 : (0 : K) < m := by exact_mod_cast (by omega : 0 < m)
    have hpos : 0 < (up - lo) / (m : K) := lt_of_le_of_lt (by positivity) h
    have hlu : lo ≤ up := by
      by_contra hc
      have : (up - lo) / (m : K) ≤ 0 := div_nonpos_of_nonpos_of_nonneg (by linarith [not_le.mp hc]) hm0.le
      linarith
    have h1 := lowerR_error hr heps fused lo up hlu m k (by omega) hk.le hm
    have h2 := lowerR_error hr heps fused lo up hlu m (k + 1) (by omega) hk hm
    rw [cell_bounds hr fused lo up hk hm]
    rw [abs_le] at h1 h2
    have e : (up - lo) * ((k + 1 : ℕ) : K) / m = (up - lo) * k / m + (up - lo) / m := by push_cast; ring
    rw [e] at h2
    linarith [h1.2, h2.1]
  exact ⟨key _ _ _ _ g1 b1 hx, key _ _ _ _ g2 b2 hy, key _ _ _ _ g3 b3 hz⟩

end

/-- **C111** (IEEE 754).  Double precision, rounding to nearest with ties to even, is such an arithmetic: the relative error is at most 2⁻⁵³ and all numbers of cells up to 2⁵³ are represented exactly. -/
theorem C111_binary64 : IsRounding binary64 (1 / 2 ^ 53) (2 ^ 53) := binary64_isRounding

/-- A box from 0 to 1 in double precision with 49 cells in the first direction meets the hypotheses: the cells have a positive size, and they begin at the corner of the box. -/
example : (∀ i < 49, ProperBox (boxXYZR binary64 false ⟨49, 1, 1⟩ ⟨⟨0, 0, 0⟩, ⟨1, 1, 1⟩⟩ i)) ∧ (boxXYZR binary64 false ⟨49, 1, 1⟩ ⟨⟨0, 0, 0⟩, ⟨1, 1, 1⟩⟩ 0).lower = ⟨0, 0, 0⟩ := by
  constructor
  · intro i hi
    exact C111_size_partial C111_binary64 (by norm_num) false _ (by norm_num) _ (by norm_num) (by norm_num) (by norm_num) i hi
  · exact C111_begin C111_binary64 false _ (by decide) _ (by simp [b64_zero])

/-- A cell in double precision: the eleventh of 49 cells from 0 to 1 (the same number as computed by the processor). -/
example : (boxXYZR binary64 false ⟨49, 1, 1⟩ ⟨⟨0, 0, 0⟩, ⟨1, 1, 1⟩⟩ 10).lower.x = 7352815718155911 / 36028797018963968 ∧ (boxXYZR binary64 true ⟨49, 1, 1⟩ ⟨⟨0, 0, 0⟩, ⟨1, 1, 1⟩⟩ 48).upper.x = 1 - 1 / 2 ^ 53 := by
  decide +kernel

/-- **C111 is false of the code** (the cells do not always fill the box).  The box from 0 to 1 with 49 cells in the first direction, in double precision: the upper corner of the box is in no cell. -/
theorem C111_end_false_of_code : ∃ (n : V3 Nat) (dom : Box ℚ), ProperBox dom ∧ InBox dom dom.upper ∧ ∀ fused, ∀ i < Grid.numElements n, ¬ InBox (boxXYZR binary64 fused n dom i) dom.upper := by
  refine ⟨⟨49, 1, 1⟩, ⟨⟨0, 0, 0⟩, ⟨1, 1, 1⟩⟩, by norm_num [ProperBox], by norm_num [InBox], ?_⟩
  have h : ∀ fused, ∀ i < 49, (boxXYZR binary64 fused ⟨49, 1, 1⟩ ⟨⟨0, 0, 0⟩, ⟨1, 1, 1⟩⟩ i).upper.x < 1 := by decide +kernel
  intro fused i hi hc
  exact absurd hc.1.2 (not_le.mpr (h fused i hi))

/-- **C111 is false of the code** (the cells do not always stay in the box).  The box from 0 to 3 with 187 cells, in double precision: the last cell ends beyond the box. -/
theorem C111_beyond_false_of_code : ∃ (n : V3 Nat) (dom : Box ℚ), ProperBox dom ∧ ∀ fused, ∃ i < Grid.numElements n, ∃ q, InBox (boxXYZR binary64 fused n dom i) q ∧ ¬ InBox dom q := by
  refine ⟨⟨187, 1, 1⟩, ⟨⟨0, 0, 0⟩, ⟨3, 3, 3⟩⟩, by norm_num [ProperBox], fun fused => ⟨186, by decide, (boxXYZR binary64 fused ⟨187, 1, 1⟩ ⟨⟨0, 0, 0⟩, ⟨3, 3, 3⟩⟩ 186).upper, ?_, ?_⟩⟩
  · have := (C111_tile C111_binary64 fused ⟨187, 1, 1⟩ (by norm_num) (by decide) ⟨⟨0, 0, 0⟩, ⟨3, 3, 3⟩⟩).1 186 (by decide)
    exact ⟨⟨this.1, le_refl _⟩, ⟨this.2.1, le_refl _⟩, ⟨this.2.2, le_refl _⟩⟩
  · have h : ∀ fused, 3 < (boxXYZR binary64 fused ⟨187, 1, 1⟩ ⟨⟨0, 0, 0⟩, ⟨3, 3, 3⟩⟩ 186).upper.x := by decide +kernel
    intro hc
    exact absurd hc.1.2 (not_le.mpr (h fused))

/-- **C111 is false of the code** (cells without size).  A box whose cells are smaller than the spacing of the numbers: from 2⁵³ to 2⁵³ + 2 with 4 cells, all numbers represented exactly; the first
cell has no extent. -/
theorem C111_size_false_of_code : ∃ (n : V3 Nat) (dom : Box ℚ), ProperBox dom ∧ binary64 dom.lower.x = dom.lower.x ∧ binary64 dom.upper.x = dom.upper.x ∧
    ∀ fused, ∃ i < Grid.numElements n, (boxXYZR binary64 fused n dom i).lower.x = (boxXYZR binary64 fused n dom i).upper.x := by
  refine ⟨⟨4, 1, 1⟩, ⟨⟨9007199254740992, 0, 0⟩, ⟨9007199254740994, 1, 1⟩⟩, by norm_num [ProperBox], by decide +kernel, by decide +kernel, ?_⟩
  have h : ∀ fused, (boxXYZR binary64 fused ⟨4, 1, 1⟩ ⟨⟨9007199254740992, 0, 0⟩, ⟨9007199254740994, 1, 1⟩⟩ 0).lower.x =
      (boxXYZR binary64 fused ⟨4, 1, 1⟩ ⟨⟨9007199254740992, 0, 0⟩, ⟨9007199254740994, 1, 1⟩⟩ 0).upper.x := by decide +kernel
  exact fun fused => ⟨0, by decide, h fused⟩

end QuESo.Props
