import Verif.Proofs.AABB
import Mathlib.Tactic.GCongr

/-!
# Lemmas about the ray tests
-/
namespace QuESo.AABB
open QuESo.Spec
variable {K : Type _} [Field K] [LinearOrder K]

/-- The comparisons after the origin test. -/
def slabs (nx fx ny fy nz fz : Ext K) : Bool :=
  if fy.lt nx then false
  else if fx.lt ny then false
  else if (fx.min fy).lt nz then false
  else if fz.lt (nx.max ny) then false
  else if ((nx.max ny).max nz).lt (.fin 0) then false else true

/-- Entry and exit parameters of one direction. -/
def near (s : Bool) (lo up o : K) (i : Ext K) : Ext K := Ext.mul (pick s lo up - o) i
def far (s : Bool) (lo up o : K) (i : Ext K) : Ext K := Ext.mul (pick (!s) lo up - o) i

theorem intersectGeneral_eq (r : Ray K) (b : Box K) : r.intersectGeneral b =
    if r.originInside b then true else
      slabs (near r.sign.x b.lower.x b.upper.x r.origin.x r.invDirection.x) (far r.sign.x b.lower.x b.upper.x r.origin.x r.invDirection.x)
        (near r.sign.y b.lower.y b.upper.y r.origin.y r.invDirection.y) (far r.sign.y b.lower.y b.upper.y r.origin.y r.invDirection.y)
        (near r.sign.z b.lower.z b.upper.z r.origin.z r.invDirection.z) (far r.sign.z b.lower.z b.upper.z r.origin.z r.invDirection.z) := rfl

theorem intersectPositive_eq (r : Ray K) (b : Box K) : r.intersectPositive b =
    if r.originInside b then true else
      slabs (near false b.lower.x b.upper.x r.origin.x r.invDirection.x) (far false b.lower.x b.upper.x r.origin.x r.invDirection.x)
        (near false b.lower.y b.upper.y r.origin.y r.invDirection.y) (far false b.lower.y b.upper.y r.origin.y r.invDirection.y)
        (near false b.lower.z b.upper.z r.origin.z r.invDirection.z) (far false b.lower.z b.upper.z r.origin.z r.invDirection.z) := rfl

theorem originInside_iff (r : Ray K) (b : Box K) : r.originInside b = true ↔ InBox b r.origin := by
  simp only [Ray.originInside, InBox, Bool.and_eq_true, decide_eq_true_eq, ge_iff_le]
  tauto

variable [IsStrictOrderedRing K]

theorem slabs_fin {nx fx ny fy nz fz : K} (hx : nx ≤ fx) (hy : ny ≤ fy) (hz : nz ≤ fz) :
    slabs (.fin nx) (.fin fx) (.fin ny) (.fin fy) (.fin nz) (.fin fz) = true ↔
      (∃ t, (nx ≤ t ∧ t ≤ fx) ∧ (ny ≤ t ∧ t ≤ fy) ∧ (nz ≤ t ∧ t ≤ fz)) ∧ (0 ≤ nx ∨ 0 ≤ ny ∨ 0 ≤ nz) := by
  have e1 : ∀ a b : K, Ext.max (.fin a) (.fin b) = .fin (max a b) := by
    intro a b
    simp only [Ext.max, Ext.lt, decide_eq_true_eq]
    split_ifs with h
    · rw [max_eq_right h.le]
    · rw [max_eq_left (not_lt.1 h)]
  have e2 : ∀ a b : K, Ext.min (.fin a) (.fin b) = .fin (min a b) := by
    intro a b
    simp only [Ext.min, Ext.lt, decide_eq_true_eq]
    split_ifs with h
    · rw [min_eq_right h.le]
    · rw [min_eq_left (not_lt.1 h)]
  unfold slabs
  simp only [e1, e2, Ext.lt, decide_eq_true_eq]
  have key : slabs (.fin nx) (.fin fx) (.fin ny) (.fin fy) (.fin nz) (.fin fz) = true ↔
      nx ≤ fy ∧ ny ≤ fx ∧ (nz ≤ fx ∧ nz ≤ fy) ∧ (nx ≤ fz ∧ ny ≤ fz) ∧ (0 ≤ nx ∨ 0 ≤ ny ∨ 0 ≤ nz) := by
    unfold slabs
    simp only [e1, e2, Ext.lt, decide_eq_true_eq]
    split_ifs with h1 h2 h3 h4 h5 <;>
      simp only [not_lt, lt_max_iff, min_lt_iff, max_lt_iff, max_le_iff, le_min_iff, le_max_iff, Bool.false_eq_true, false_iff,
        true_iff] at *
    · rintro ⟨g, -⟩; exact absurd h1 (not_lt.2 g)
    · rintro ⟨-, g, -⟩; exact absurd h2 (not_lt.2 g)
    · rintro ⟨-, -, ⟨g, g'⟩, -⟩
      rcases h3 with h | h
      · exact absurd h (not_lt.2 g)
      · exact absurd h (not_lt.2 g')
    · rintro ⟨-, -, -, ⟨g, g'⟩, -⟩
      rcases h4 with h | h
      · exact absurd h (not_lt.2 g)
      · exact absurd h (not_lt.2 g')
    · rintro ⟨-, -, -, -, g⟩
      rcases g with g | g | g
      · exact absurd h5.1.1 (not_lt.2 g)
      · exact absurd h5.1.2 (not_lt.2 g)
      · exact absurd h5.2 (not_lt.2 g)
    · simp only [not_or, not_and_or, not_lt] at h3 h4 h5
      tauto
  unfold slabs at key
  simp only [e1, e2, Ext.lt, decide_eq_true_eq] at key
  rw [key]
  constructor
  · rintro ⟨h1, h2, ⟨h3, h4⟩, ⟨h5, h6⟩, h⟩
    refine ⟨⟨max (max nx ny) nz, ⟨?_, ?_⟩, ⟨?_, ?_⟩, ⟨?_, ?_⟩⟩, h⟩ <;>
      simp only [le_max_iff, max_le_iff, le_refl, true_or, or_true, and_self, *]
  · rintro ⟨⟨t, ⟨a1, a2⟩, ⟨b1, b2⟩, c1, c2⟩, h⟩
    exact ⟨a1.trans b2, b1.trans a2, ⟨c1.trans a2, c1.trans b2⟩, ⟨a1.trans c2, b1.trans c2⟩, h⟩

/-- Entry and exit parameter for a non-zero component. -/
theorem axis_fin {d lo up o : K} (hd : d ≠ 0) (hlu : lo ≤ up) (m : Bool) :
    ∃ n f, near ((inv d m).lt (.fin 0)) lo up o (inv d m) = .fin n ∧ far ((inv d m).lt (.fin 0)) lo up o (inv d m) = .fin f ∧
      n ≤ f ∧ (∀ t, (n ≤ t ∧ t ≤ f) ↔ (lo ≤ o + t * d ∧ o + t * d ≤ up)) := by
  have hi : inv d m = .fin (1 / d) := by simp [inv, hd]
  rw [hi]
  simp only [near, far, Ext.mul, Ext.lt]
  rcases lt_or_gt_of_ne hd with h | h
  · have hneg : (1 / d) < 0 := one_div_neg.2 h
    simp only [hneg, decide_true, pick, if_true, Bool.not_true, Bool.false_eq_true, if_false]
    refine ⟨_, _, rfl, rfl, ?_, ?_⟩
    · exact mul_le_mul_of_nonpos_right (by linarith) hneg.le
    · intro t
      rw [mul_one_div, mul_one_div, div_le_iff_of_neg h, le_div_iff_of_neg h]
      constructor <;> rintro ⟨h1, h2⟩ <;> constructor <;> linarith
  · have hpos : 0 < (1 / d) := one_div_pos.2 h
    simp only [not_lt.2 hpos.le, decide_false, pick, if_true, Bool.not_false, Bool.false_eq_true, if_false]
    refine ⟨_, _, rfl, rfl, ?_, ?_⟩
    · exact mul_le_mul_of_nonneg_right (by linarith) hpos.le
    · intro t
      rw [mul_one_div, mul_one_div, div_le_iff₀ h, le_div_iff₀ h]
      constructor <;> rintro ⟨h1, h2⟩ <;> constructor <;> linarith

/-- The value may be the entry parameter of a direction in which the ray is in the slab at `t`, and `ins` holds
if the entry is before the origin. -/
def Near (t : K) (ins : Prop) (a : Ext K) : Prop :=
  (a = .nan ∧ ins) ∨ (a = .ninf ∧ ins) ∨ ∃ n, a = .fin n ∧ n ≤ t ∧ (n < 0 → ins)

/-- The value may be the exit parameter of a direction in which the ray is in the slab at `t`. -/
def Far (t : K) (a : Ext K) : Prop := a = .nan ∨ a = .pinf ∨ ∃ n, a = .fin n ∧ t ≤ n

theorem axis_near_far {d lo up o t : K} (ht : 0 ≤ t) (h1 : lo ≤ o + t * d) (h2 : o + t * d ≤ up) (m : Bool) :
    Near t (lo ≤ o ∧ o ≤ up) (near ((inv d m).lt (.fin 0)) lo up o (inv d m)) ∧
      Far t (far ((inv d m).lt (.fin 0)) lo up o (inv d m)) := by
  by_cases hd : d = 0
  · subst hd
    simp only [mul_zero, add_zero] at h1 h2
    have hlo : ¬ 0 < lo - o := by linarith
    have hup : ¬ up - o < 0 := by linarith
    cases m
    · simp only [inv, if_true, Bool.false_eq_true, if_false, near, far, Ext.lt, pick, Bool.not_false, Ext.mul]
      constructor
      · split_ifs with g
        · exact Or.inl ⟨rfl, h1, h2⟩
        · exact Or.inr (Or.inl ⟨rfl, h1, h2⟩)
      · split_ifs with g g'
        · exact Or.inl rfl
        · exact Or.inr (Or.inl rfl)
        · exact absurd (lt_of_le_of_ne (not_lt.1 g') g) hup
    · simp only [inv, if_true, near, far, Ext.lt, pick, Bool.not_true, Bool.false_eq_true, if_false, Ext.mul]
      constructor
      · split_ifs with g g'
        · exact Or.inl ⟨rfl, h1, h2⟩
        · exact Or.inr (Or.inl ⟨rfl, h1, h2⟩)
        · exact absurd (lt_of_le_of_ne (not_lt.1 g') g) hup
      · split_ifs with g
        · exact Or.inl rfl
        · exact Or.inr (Or.inl rfl)
  · obtain ⟨n, f, e1, e2, hnf, hiff⟩ := axis_fin (o := o) hd (h1.trans h2) m
    rw [e1, e2]
    obtain ⟨g1, g2⟩ := (hiff t).2 ⟨h1, h2⟩
    refine ⟨Or.inr (Or.inr ⟨n, rfl, g1, ?_⟩), Or.inr (Or.inr ⟨f, rfl, g2⟩)⟩
    intro hn
    have := (hiff 0).1 ⟨hn.le, ht.trans g2⟩
    simpa using this

omit [IsStrictOrderedRing K] in
theorem not_lt_of {t : K} {p : Prop} {a b : Ext K} (ha : Near t p a) (hb : Far t b) : b.lt a = false := by
  rcases ha with ⟨rfl, -⟩ | ⟨rfl, -⟩ | ⟨n, rfl, h, -⟩ <;> rcases hb with rfl | rfl | ⟨f, rfl, h'⟩ <;> simp [Ext.lt]
  exact h.trans h'

omit [IsStrictOrderedRing K] in
theorem far_min {t : K} {a b : Ext K} (ha : Far t a) (hb : Far t b) : Far t (a.min b) := by
  unfold Ext.min; split_ifs
  · exact hb
  · exact ha

omit [IsStrictOrderedRing K] in
theorem near_max {t : K} {p q : Prop} {a b : Ext K} (ha : Near t p a) (hb : Near t q b) : ∃ r, Near t r (a.max b) := by
  unfold Ext.max; split_ifs
  · exact ⟨q, hb⟩
  · exact ⟨p, ha⟩

omit [IsStrictOrderedRing K] in
theorem max_neg {a b : Ext K} (h : (a.max b).lt (.fin 0) = true) :
    a.lt (.fin 0) = true ∧ (b.lt (.fin 0) = true ∨ b = .nan) := by
  unfold Ext.max at h
  cases a <;> cases b <;> simp only [Ext.lt] at * <;> simp_all
  split_ifs at h with g <;> simp_all
  · exact g.trans h
  · exact lt_of_le_of_lt g h

omit [IsStrictOrderedRing K] in
theorem ins_of {t : K} {p : Prop} {a : Ext K} (h : Near t p a) (hn : a.lt (.fin 0) = true ∨ a = .nan) : p := by
  rcases h with ⟨rfl, h⟩ | ⟨rfl, h⟩ | ⟨n, rfl, -, h⟩
  · exact h
  · exact h
  · rcases hn with hn | hn
    · exact h (by simpa [Ext.lt] using hn)
    · cases hn

omit [IsStrictOrderedRing K] in
theorem slabs_near_far {t : K} {p q r : Prop} {nx fx ny fy nz fz : Ext K} (hnx : Near t p nx) (hfx : Far t fx) (hny : Near t q ny)
    (hfy : Far t fy) (hnz : Near t r nz) (hfz : Far t fz) (hout : ¬ (p ∧ q ∧ r)) : slabs nx fx ny fy nz fz = true := by
  unfold slabs
  obtain ⟨s, hm⟩ := near_max hnx hny
  rw [not_lt_of hnx hfy, not_lt_of hny hfx, not_lt_of hnz (far_min hfx hfy), not_lt_of hm hfz]
  simp only [Bool.false_eq_true, if_false]
  split_ifs with h
  · exfalso
    obtain ⟨h1, h2⟩ := max_neg h
    obtain ⟨h3, h4⟩ := max_neg h1
    exact hout ⟨ins_of hnx (Or.inl h3), ins_of hny h4, ins_of hnz h2⟩
  · rfl

/-- The general test on a ray none of whose direction components is zero. -/
theorem general_exact (r : Ray K) (b : Box K) (hb : Ordered b) (hx : r.direction.x ≠ 0) (hy : r.direction.y ≠ 0) (hz : r.direction.z ≠ 0) :
    r.intersectGeneral b = true ↔ ∃ q, OnRay r.origin r.direction q ∧ InBox b q := by
  obtain ⟨bx, by', bz⟩ := hb
  rw [intersectGeneral_eq]
  obtain ⟨nx, fx, e1, e2, lx, kx⟩ := axis_fin (o := r.origin.x) hx bx r.minusZero.x
  obtain ⟨ny, fy, e3, e4, ly, ky⟩ := axis_fin (o := r.origin.y) hy by' r.minusZero.y
  obtain ⟨nz, fz, e5, e6, lz, kz⟩ := axis_fin (o := r.origin.z) hz bz r.minusZero.z
  simp only [Ray.sign, Ray.invDirection]
  rw [e1, e2, e3, e4, e5, e6]
  split_ifs with ho
  · simp only [true_iff]
    exact ⟨r.origin, ⟨0, le_rfl, by simp, by simp, by simp⟩, (originInside_iff r b).1 ho⟩
  · rw [slabs_fin lx ly lz]
    constructor
    · rintro ⟨⟨t, tx, ty, tz⟩, h⟩
      refine ⟨⟨r.origin.x + t * r.direction.x, r.origin.y + t * r.direction.y, r.origin.z + t * r.direction.z⟩, ⟨t, ?_, rfl, rfl, rfl⟩,
        (kx t).1 tx, (ky t).1 ty, (kz t).1 tz⟩
      rcases h with h | h | h
      · exact h.trans tx.1
      · exact h.trans ty.1
      · exact h.trans tz.1
    · rintro ⟨q, ⟨t, t0, q1, q2, q3⟩, i1, i2, i3⟩
      rw [q1] at i1
      rw [q2] at i2
      rw [q3] at i3
      have tx := (kx t).2 i1
      have ty := (ky t).2 i2
      have tz := (kz t).2 i3
      refine ⟨⟨t, tx, ty, tz⟩, ?_⟩
      by_contra hcon
      push Not at hcon
      obtain ⟨g1, g2, g3⟩ := hcon
      apply ho
      rw [originInside_iff]
      have k1 := (kx 0).1 ⟨g1.le, t0.trans tx.2⟩
      have k2 := (ky 0).1 ⟨g2.le, t0.trans ty.2⟩
      have k3 := (kz 0).1 ⟨g3.le, t0.trans tz.2⟩
      simp only [zero_mul, add_zero] at k1 k2 k3
      exact ⟨k1, k2, k3⟩

/-- For positive directions the two tests agree. -/
theorem positive_eq_general (r : Ray K) (b : Box K) (hx : 0 < r.direction.x) (hy : 0 < r.direction.y) (hz : 0 < r.direction.z) :
    r.intersectPositive b = r.intersectGeneral b := by
  have key : ∀ (d : K) (m : Bool), 0 < d → (inv d m).lt (.fin 0) = false := by
    intro d m hd
    simp [inv, hd.ne', Ext.lt, hd.le]
  rw [intersectGeneral_eq, intersectPositive_eq]
  simp only [Ray.sign, Ray.invDirection, key _ _ hx, key _ _ hy, key _ _ hz]

/-- The general test never misses. -/
theorem general_of_point (r : Ray K) (b : Box K) (h : ∃ q, OnRay r.origin r.direction q ∧ InBox b q) : r.intersectGeneral b = true := by
  obtain ⟨q, ⟨t, t0, q1, q2, q3⟩, i1, i2, i3⟩ := h
  rw [q1] at i1
  rw [q2] at i2
  rw [q3] at i3
  rw [intersectGeneral_eq]
  split_ifs with ho
  · rfl
  · obtain ⟨x1, x2⟩ := axis_near_far t0 i1.1 i1.2 r.minusZero.x
    obtain ⟨y1, y2⟩ := axis_near_far t0 i2.1 i2.2 r.minusZero.y
    obtain ⟨z1, z2⟩ := axis_near_far t0 i3.1 i3.2 r.minusZero.z
    refine slabs_near_far x1 x2 y1 y2 z1 z2 ?_
    rintro h
    exact ho ((originInside_iff r b).2 h)

end QuESo.AABB
