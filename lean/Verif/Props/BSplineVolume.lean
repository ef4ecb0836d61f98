import Verif.Proofs.BSplineVolume
import Verif.Model.GridIndexer
import Verif.Spec.BSpline
import Mathlib.Algebra.Order.Floor.Semiring
import Mathlib.Data.Rat.Floor

/-!
# C86 - C88: the B-spline volume and other functions of the python interface

Specification: `Verif.Spec.BSpline` (basis functions, curves and volumes as in textbooks).
-/
namespace QuESo.BSpline
open QuESo.BSplineSpec QuESo.Mapping
variable {K : Type _} [Field K] [LinearOrder K] [IsStrictOrderedRing K] [FloorRing K]

omit [LinearOrder K] [FloorRing K] [IsStrictOrderedRing K] in
theorem knots_parts {low mid up : List K} {p m : Nat} (hl : low.length = p + 1) (hm : mid.length = m) (i : Nat) :
    knots (low ++ mid ++ up) i = if i ≤ p then low.getD i 0 else if i < p + 1 + m then mid.getD (i - (p + 1)) 0
      else up.getD (i - (p + 1 + m)) 0 := by
  unfold knots
  by_cases h1 : i ≤ p
  · rw [if_pos h1, List.append_assoc, List.getD_append _ _ _ _ (by omega)]
  · rw [if_neg h1]
    by_cases h2 : i < p + 1 + m
    · rw [if_pos h2, List.getD_append _ _ _ _ (by rw [List.length_append]; omega), List.getD_append_right _ _ _ _ (by omega), hl]
    · rw [if_neg h2, List.getD_append_right _ _ _ _ (by rw [List.length_append]; omega), List.length_append, hl, hm]

/-- C86: in each direction there are as many control points as elements plus the order, the knots inside of the domain are the
borders of the elements, and the knots outside are repeated (open) or go on with the same distance. -/
theorem C86_knots (junk : Spline K → List K) {p ne : Nat} (hp : 0 < p) (hne : 0 < ne) {lx ux lu uu : K} (hx : lx ≠ ux) (hu : lu < uu)
    (isOpen : Bool) : ∃ s, construct junk p ne lx ux lu uu isOpen = some s ∧ s.k = p ∧ s.c.length = ne + p ∧
      s.t.length = ne + 2 * p + 1 ∧ (∀ j ≤ ne, s.t[p + j]? = some (lu + j * ((uu - lu) / ne))) ∧
      (isOpen = true → ∀ j ≤ p, s.t[j]? = some lu ∧ s.t[p + ne + j]? = some uu) ∧
      (isOpen = false → ∀ j < ne + 2 * p + 1, s.t[j]? = some (lu + ((j : K) - (p : K)) * ((uu - lu) / ne))) := by
  obtain ⟨s, h, hk, ht, hc, -⟩ := construct_spec junk hp hne hx hu isOpen
  have hne' : (ne : K) ≠ 0 := Nat.cast_ne_zero.2 (by omega)
  have E := ends_ok p lu uu ((uu - lu) / ne) isOpen (div_nonneg (sub_nonneg.2 hu.le) (Nat.cast_nonneg _))
  have hml : (midKnots ne lu ((uu - lu) / (ne : K))).length = ne - 1 := by simp [midKnots]
  have hlen : s.t.length = ne + 2 * p + 1 := by
    rw [ht, List.length_append, List.length_append, E.lenLow, E.lenUp, hml]; omega
  have hkn := knots_parts (up := upKnots p uu ((uu - lu) / ne) isOpen) E.lenLow hml
  rw [← ht] at hkn
  have hget : ∀ i, i < ne + 2 * p + 1 → s.t[i]? = some (knots s.t i) := by
    intro i hi
    unfold knots
    rw [List.getD_eq_getElem _ _ (by omega), List.getElem?_eq_getElem (by omega)]
  have e : (ne : K) * ((uu - lu) / ne) = uu - lu := by field_simp
  have hlow : ∀ i, i ≤ p → knots s.t i = if isOpen then lu else lu - ((p : K) - (i : K)) * ((uu - lu) / ne) := by
    intro i hi
    rw [hkn, if_pos hi, List.getD_eq_getElem _ _ (by rw [E.lenLow]; omega)]
    simp [lowKnots]
  have hmid : ∀ j, j + 1 < ne → knots s.t (p + (j + 1)) = lu + ((j : K) + 1) * ((uu - lu) / ne) := by
    intro j hj
    rw [hkn, if_neg (by omega), if_pos (by omega), List.getD_eq_getElem _ _ (by rw [hml]; omega)]
    simp only [midKnots, List.getElem_map, List.getElem_range]
    rw [show p + (j + 1) - (p + 1) = j by omega]
  have hup : ∀ j, j ≤ p → knots s.t (p + ne + j) = if isOpen then uu else uu + (j : K) * ((uu - lu) / ne) := by
    intro j hj
    rw [hkn, if_neg (by omega), if_neg (by omega), List.getD_eq_getElem _ _ (by rw [E.lenUp]; omega)]
    simp only [upKnots, List.getElem_map, List.getElem_range]
    rw [show p + ne + j - (p + 1 + (ne - 1)) = j by omega]
  refine ⟨s, h, hk, hc, hlen, fun j hj => ?_, ?_, ?_⟩
  · rw [hget _ (by omega)]
    congr 1
    rcases Nat.eq_zero_or_pos j with rfl | hj0
    · rw [hlow _ (by omega)]
      cases isOpen <;> simp
    · by_cases hjn : j = ne
      · subst hjn
        have := hup 0 (by omega)
        rw [show p + j + 0 = p + j by omega] at this
        rw [this, e]
        cases isOpen <;> simp
      · have := hmid (j - 1) (by omega)
        rw [show p + (j - 1 + 1) = p + j by omega] at this
        rw [this, Nat.cast_sub (by omega)]
        push_cast
        ring
  · rintro rfl j hj
    rw [hget _ (by omega), hget _ (by omega), hlow _ hj, hup _ hj]
    exact ⟨rfl, rfl⟩
  · rintro rfl j hj
    rw [hget _ (by omega)]
    congr 1
    by_cases h1 : j ≤ p
    · rw [hlow _ h1]
      simp only [Bool.false_eq_true, if_false]
      ring
    · by_cases h2 : j < p + ne
      · have := hmid (j - p - 1) (by omega)
        rw [show p + (j - p - 1 + 1) = j by omega] at this
        rw [this, Nat.sub_sub, Nat.cast_sub (by omega)]
        push_cast
        ring
      · have := hup (j - p - ne) (by omega)
        rw [show p + ne + (j - p - ne) = j by omega] at this
        rw [this, Nat.sub_sub, Nat.cast_sub (by omega)]
        simp only [Bool.false_eq_true, if_false]
        push_cast
        linarith [e]

/-- C86: in each direction the basis functions add up to one and the spline is the affine map from the parametric interval to the interval
in space. -/
theorem C86_curve (junk : Spline K → List K) {p ne : Nat} (hp : 0 < p) (hne : 0 < ne) {lx ux lu uu : K} (hx : lx ≠ ux) (hu : lu < uu)
    (isOpen : Bool) : ∃ s, construct junk p ne lx ux lu uu isOpen = some s ∧
      ∀ u, lu ≤ u → u ≤ uu → ∑ i ∈ Finset.range s.c.length, basisOf s.t p i u = 1 ∧
        curve s.t s.c p u = lx + (u - lu) / (uu - lu) * (ux - lx) := by
  obtain ⟨s, h, hk, ht, hc, hco⟩ := construct_spec junk hp hne hx hu isOpen
  obtain ⟨s', h', -, -, hlen, hkn, -⟩ := C86_knots junk hp hne hx hu isOpen
  obtain rfl : s = s' := Option.some.inj (h.symm.trans h')
  refine ⟨s, h, fun u hl huu => ?_⟩
  have hne' : (ne : K) ≠ 0 := Nat.cast_ne_zero.2 (by omega)
  have E := ends_ok p lu uu ((uu - lu) / ne) isOpen (div_nonneg (sub_nonneg.2 hu.le) (Nat.cast_nonneg _))
  have k0 : knots s.t p = lu := by
    have := hkn 0 (by omega)
    rw [Nat.add_zero] at this
    unfold knots
    rw [List.getD_eq_getElem?_getD, this]
    simp
  have k1 : knots s.t (ne + p) = uu := by
    have := hkn ne le_rfl
    unfold knots
    rw [List.getD_eq_getElem?_getD, Nat.add_comm, this]
    simp only [Option.getD_some]
    field_simp
    ring
  have hs : s.t.Pairwise (· ≤ ·) := by
    rw [List.pairwise_iff_getElem]
    intro i j hi hj hij
    cases isOpen with
    | false =>
      obtain ⟨s', h', -, -, -, -, -, hk2⟩ := C86_knots junk hp hne hx hu false
      obtain rfl : s = s' := Option.some.inj (h.symm.trans h')
      have e1 := hk2 rfl i (by omega)
      have e2 := hk2 rfl j (by omega)
      rw [List.getElem?_eq_getElem hi] at e1
      rw [List.getElem?_eq_getElem hj] at e2
      rw [Option.some.inj e1, Option.some.inj e2]
      have : (i : K) ≤ j := Nat.cast_le.2 hij.le
      have hd : 0 ≤ (uu - lu) / (ne : K) := div_nonneg (sub_nonneg.2 hu.le) (Nat.cast_nonneg _)
      have := mul_le_mul_of_nonneg_right (sub_le_sub_right this (p : K)) hd
      linarith
    | true =>
      obtain ⟨s', h', -, -, -, hk1, hk2, -⟩ := C86_knots junk hp hne hx hu true
      obtain rfl : s = s' := Option.some.inj (h.symm.trans h')
      have hd : 0 ≤ (uu - lu) / (ne : K) := div_nonneg (sub_nonneg.2 hu.le) (Nat.cast_nonneg _)
      have hall : ∀ i (hi : i < s.t.length), ∃ r : Nat, r ≤ ne ∧ (r = i - p ∨ (r = ne ∧ ne ≤ i - p)) ∧ s.t[i] = lu + r * ((uu - lu) / ne) := by
        intro i hi
        by_cases h1 : i ≤ p
        · have := (hk2 rfl i h1).1
          rw [List.getElem?_eq_getElem hi] at this
          exact ⟨0, by omega, .inl (by omega), by rw [Option.some.inj this]; simp⟩
        · by_cases h2 : i ≤ p + ne
          · have := hk1 (i - p) (by omega)
            rw [show p + (i - p) = i by omega, List.getElem?_eq_getElem hi] at this
            exact ⟨i - p, by omega, .inl rfl, Option.some.inj this⟩
          · have := (hk2 rfl (i - p - ne) (by omega)).2
            rw [show p + ne + (i - p - ne) = i by omega, List.getElem?_eq_getElem hi] at this
            refine ⟨ne, le_rfl, .inr ⟨rfl, by omega⟩, ?_⟩
            rw [Option.some.inj this]
            field_simp
            ring
      obtain ⟨r, r1, r2, r3⟩ := hall i hi
      obtain ⟨q, q1, q2, q3⟩ := hall j hj
      rw [r3, q3]
      have : (r : K) ≤ q := Nat.cast_le.2 (by omega)
      have := mul_le_mul_of_nonneg_right this hd
      linarith
  have ha := affine_curve (t := knots s.t) (p := p) (n := ne + p) (u := u) (knots_sorted hs (by omega)) hp (by omega)
    (by rw [k0]; exact hl) (by rw [k1]; exact huu) (by rw [k0, k1]; exact hu)
  unfold curve basisOf
  rw [hc, hlen, show ne + 2 * p + 1 - p - 1 = ne + p by omega]
  refine ⟨by simpa using ha 1 0, ?_⟩
  rw [Finset.sum_congr rfl fun i hi => by rw [hco i (Finset.mem_range.1 hi)], ha _ _]
  have hu' : uu - lu ≠ 0 := sub_ne_zero.2 hu.ne'
  field_simp
  ring

/-- C86: the construction raises an exception exactly if the order or the number of elements is zero, the interval in space is empty
or the parametric interval is empty or turned over. -/
theorem C86_exceptions (junk : Spline K → List K) (p ne : Nat) (lx ux lu uu : K) (isOpen : Bool) :
    construct junk p ne lx ux lu uu isOpen = none ↔ p = 0 ∨ ne = 0 ∨ lx = ux ∨ uu ≤ lu := by
  constructor
  · intro h
    by_contra hc
    rw [not_or, not_or, not_or, not_le] at hc
    obtain ⟨s, hs, -⟩ := construct_spec junk (Nat.pos_of_ne_zero hc.1) (Nat.pos_of_ne_zero hc.2.1) hc.2.2.1 hc.2.2.2 isOpen
    rw [h] at hs
    exact absurd hs (by simp)
  · intro h
    unfold construct
    by_cases hne : ne = 0
    · rw [if_pos hne]
    rw [if_neg hne]
    dsimp only
    by_cases hp : p = 0
    · rw [if_pos hp]
    rw [if_neg hp]
    by_cases hx : lx = ux
    · unfold arange
      rw [if_pos (by rw [hx]; simp)]
      rfl
    · have hu : uu ≤ lu := by rcases h with h | h | h | h <;> first | contradiction | exact h
      have hmk : ∀ c, mkSpline (endKnots p lu uu ((uu - lu) / ne) isOpen) c p = none := by
        intro c
        have hl : (lowKnots p lu ((uu - lu) / ne) isOpen).length = p + 1 := by simp [lowKnots]
        have hul : (upKnots p uu ((uu - lu) / ne) isOpen).length = p + 1 := by simp [upKnots]
        have k0 : (endKnots p lu uu ((uu - lu) / ne) isOpen).getD p 0 = lu := by
          rw [endKnots_eq, getD_low _ _ hl, List.getD_eq_getElem _ _ (by omega)]
          cases isOpen <;> simp [lowKnots]
        have hlen : (endKnots p lu uu ((uu - lu) / ne) isOpen).length = p + 1 + (p + 1) := by
          rw [endKnots_eq, List.append_nil, List.length_append, hl, hul]
        have k1 : (endKnots p lu uu ((uu - lu) / ne) isOpen).getD (p + 1) 0 = uu := by
          have := getD_up (p := p) (low := lowKnots p lu ((uu - lu) / ne) isOpen) [] (upKnots p uu ((uu - lu) / ne) isOpen) hl
          rw [List.length_nil, Nat.add_zero] at this
          rw [endKnots_eq, this, List.getD_eq_getElem _ _ (by omega)]
          cases isOpen <;> simp [upKnots]
        unfold mkSpline
        dsimp only
        rw [if_neg (by omega), hlen, show p + 1 + (p + 1) - p - 1 = p + 1 by omega, k0, k1]
        by_cases hs : (endKnots p lu uu ((uu - lu) / ne) isOpen).Pairwise (· ≤ ·)
        · rw [if_neg (not_not.2 hs), if_pos]
          have := List.pairwise_iff_getElem.1 hs p (p + 1) (by omega) (by omega) (by omega)
          rw [List.getD_eq_getElem _ _ (by omega)] at k0 k1
          rw [k0, k1] at this
          exact le_antisymm this hu
        · rw [if_pos hs]
      cases arange lx (ux + 1 / 2 * ((ux - lx) / (p : K))) ((ux - lx) / (p : K)) with
      | none => rfl
      | some cps => rw [Option.bind_some, hmk]; rfl

/-! ## The volume -/

omit [Field K] [LinearOrder K] [IsStrictOrderedRing K] [FloorRing K] in
theorem flatMap_get {α β : Type _} (g : β → List α) {n : Nat} (h : ∀ y, (g y).length = n) :
    ∀ (ys : List β) (j i : Nat) (_ : j < ys.length), i < n → (ys.flatMap g)[j * n + i]? = (ys[j]?).bind fun y => (g y)[i]?
  | [], j, i, hj, _ => absurd hj (by simp)
  | y :: ys, 0, i, _, hi => by
    rw [List.flatMap_cons, Nat.zero_mul, Nat.zero_add, List.getElem?_append_left (by rw [h]; exact hi)]
    rfl
  | y :: ys, j + 1, i, hj, hi => by
    rw [List.flatMap_cons, List.getElem?_append_right (by rw [h, Nat.succ_mul]; omega), h,
      show (j + 1) * n + i - n = j * n + i by rw [Nat.succ_mul]; omega, flatMap_get g h ys j i (by simpa using hj) hi]
    rfl

omit [Field K] [LinearOrder K] [IsStrictOrderedRing K] [FloorRing K] in
/-- The order of the control points. -/
theorem controlPoints_get (V : Volume K) {i j k : Nat} (hi : i < V.u.c.length) (hj : j < V.v.c.length) (hk : k < V.w.c.length) :
    V.controlPoints[(k * V.v.c.length + j) * V.u.c.length + i]? = some ⟨V.u.c[i], V.v.c[j], V.w.c[k]⟩ := by
  unfold Volume.controlPoints
  have h1 : ∀ z, (V.v.c.flatMap fun y => V.u.c.map fun x => (⟨x, y, z⟩ : V3 K)).length = V.v.c.length * V.u.c.length := by
    intro z; simp [List.length_flatMap]
  have e : (k * V.v.c.length + j) * V.u.c.length + i = k * (V.v.c.length * V.u.c.length) + (j * V.u.c.length + i) := by ring
  have hb : j * V.u.c.length + i < V.v.c.length * V.u.c.length :=
    calc j * V.u.c.length + i < (j + 1) * V.u.c.length := by rw [Nat.succ_mul]; omega
      _ ≤ _ := Nat.mul_le_mul_right _ hj
  rw [e, flatMap_get _ h1 _ _ _ hk hb, List.getElem?_eq_getElem hk, Option.bind_some,
    flatMap_get _ (fun y => by simp) _ _ _ hj hi, List.getElem?_eq_getElem hj, Option.bind_some, List.getElem?_map,
    List.getElem?_eq_getElem hi, Option.map_some]

omit [Field K] [LinearOrder K] [IsStrictOrderedRing K] [FloorRing K] in
theorem foldl_zipIdx {α β : Type _} (g : β → α × Nat → β) (P : β → Nat → Prop) : ∀ (l : List α) (o : Nat) (b : β), P b o →
    (∀ b i (hi : i < l.length), P b (o + i) → P (g b (l[i], o + i)) (o + i + 1)) → P ((l.zipIdx o).foldl g b) (o + l.length)
  | [], o, b, h, _ => h
  | x :: l, o, b, h, hs => by
    rw [List.zipIdx_cons, List.foldl_cons]
    have := foldl_zipIdx g P l (o + 1) (g b (x, o)) (hs b 0 (by simp) h) (fun b i hi hP => by
      have := hs b (i + 1) (by simpa using hi)
      rw [show o + (i + 1) = o + 1 + i by omega] at this
      exact this hP)
    rw [List.length_cons, show o + (l.length + 1) = o + 1 + l.length by omega]
    exact this

omit [LinearOrder K] [IsStrictOrderedRing K] [FloorRing K] in
/-- The matrix of control points. -/
theorem matrix_get (V : Volume K) {i j k : Nat} (hi : i < V.u.c.length) (hj : j < V.v.c.length) (hk : k < V.w.c.length) :
    V.controlPointsMatrix i j k = ⟨V.u.c[i], V.v.c[j], V.w.c[k]⟩ := by
  -- a loop leaves other entries alone and sets its own
  have hx : ∀ (m : Nat → Nat → Nat → V3 K) (y z : K × Nat),
      (∀ a b c, ¬ (b = y.2 ∧ c = z.2) → (V.u.c.zipIdx.foldl (fun m x => fun i j k =>
        if i = x.2 ∧ j = y.2 ∧ k = z.2 then (⟨x.1, y.1, z.1⟩ : V3 K) else m i j k) m) a b c = m a b c) ∧
      ∀ a (ha : a < V.u.c.length), (V.u.c.zipIdx.foldl (fun m x => fun i j k =>
        if i = x.2 ∧ j = y.2 ∧ k = z.2 then (⟨x.1, y.1, z.1⟩ : V3 K) else m i j k) m) a y.2 z.2 = ⟨V.u.c[a], y.1, z.1⟩ := by
    intro m y z
    have := foldl_zipIdx (fun m x => fun i j k => if i = x.2 ∧ j = y.2 ∧ k = z.2 then (⟨x.1, y.1, z.1⟩ : V3 K) else m i j k)
      (fun r n => (∀ a b c, ¬ (b = y.2 ∧ c = z.2) → r a b c = m a b c) ∧
        ∀ a (ha : a < V.u.c.length), a < n → r a y.2 z.2 = ⟨V.u.c[a], y.1, z.1⟩) V.u.c 0 m
      ⟨fun _ _ _ _ => rfl, fun a _ h => absurd h (by omega)⟩ (fun r n hn hr => ⟨fun a b c h => by
        dsimp only
        rw [if_neg (fun h' => h h'.2)]
        exact hr.1 a b c h, fun a ha h => by
        dsimp only
        by_cases e : a = 0 + n
        · rw [if_pos ⟨e, rfl, rfl⟩]
          subst e
          simp
        · rw [if_neg (fun h' => e h'.1)]
          exact hr.2 a ha (by omega)⟩)
    exact ⟨this.1, fun a ha => this.2 a ha (by simpa using ha)⟩
  have hy : ∀ (m : Nat → Nat → Nat → V3 K) (z : K × Nat),
      (∀ a b c, c ≠ z.2 → (V.v.c.zipIdx.foldl (fun m y => V.u.c.zipIdx.foldl (fun m x => fun i j k =>
        if i = x.2 ∧ j = y.2 ∧ k = z.2 then (⟨x.1, y.1, z.1⟩ : V3 K) else m i j k) m) m) a b c = m a b c) ∧
      ∀ b (hb : b < V.v.c.length) a (ha : a < V.u.c.length), (V.v.c.zipIdx.foldl (fun m y => V.u.c.zipIdx.foldl (fun m x => fun i j k =>
        if i = x.2 ∧ j = y.2 ∧ k = z.2 then (⟨x.1, y.1, z.1⟩ : V3 K) else m i j k) m) m) a b z.2 = ⟨V.u.c[a], V.v.c[b], z.1⟩ := by
    intro m z
    have := foldl_zipIdx (fun m y => V.u.c.zipIdx.foldl (fun m x => fun i j k =>
        if i = x.2 ∧ j = y.2 ∧ k = z.2 then (⟨x.1, y.1, z.1⟩ : V3 K) else m i j k) m)
      (fun r n => (∀ a b c, c ≠ z.2 → r a b c = m a b c) ∧
        ∀ b (hb : b < V.v.c.length) a (ha : a < V.u.c.length), b < n → r a b z.2 = ⟨V.u.c[a], V.v.c[b], z.1⟩) V.v.c 0 m
      ⟨fun _ _ _ _ => rfl, fun b _ _ _ h => absurd h (by omega)⟩ (fun r n hn hr => ⟨fun a b c h => by
        dsimp only
        rw [(hx r (V.v.c[n], 0 + n) z).1 a b c (fun h' => h h'.2)]
        exact hr.1 a b c h, fun b hb a ha h => by
        dsimp only
        by_cases e : b = 0 + n
        · have := (hx r (V.v.c[n], 0 + n) z).2 a ha
          dsimp only at this
          subst e
          rw [this]
          simp
        · rw [(hx r (V.v.c[n], 0 + n) z).1 a b z.2 (fun h' => e h'.1)]
          exact hr.2 b hb a ha (by omega)⟩)
    exact ⟨this.1, fun b hb a ha => this.2 b hb a ha (by simpa using hb)⟩
  have := foldl_zipIdx (fun m z => V.v.c.zipIdx.foldl (fun m y => V.u.c.zipIdx.foldl (fun m x => fun i j k =>
        if i = x.2 ∧ j = y.2 ∧ k = z.2 then (⟨x.1, y.1, z.1⟩ : V3 K) else m i j k) m) m)
      (fun r n => ∀ c (hc : c < V.w.c.length) b (hb : b < V.v.c.length) a (ha : a < V.u.c.length), c < n →
        r a b c = ⟨V.u.c[a], V.v.c[b], V.w.c[c]⟩) V.w.c 0 (fun _ _ _ => ⟨0, 0, 0⟩)
      (fun c _ _ _ _ _ h => absurd h (by omega)) (fun r n hn hr c hc b hb a ha h => by
        dsimp only
        by_cases e : c = 0 + n
        · have := (hy r (V.w.c[n], 0 + n)).2 b hb a ha
          dsimp only at this
          subst e
          rw [this]
          simp
        · rw [(hy r (V.w.c[n], 0 + n)).1 a b c e]
          exact hr c hc b hb a ha (by omega))
  exact this k hk j hj i hi (by simpa using hk)

omit [LinearOrder K] [IsStrictOrderedRing K] [FloorRing K] in
theorem tensor_sum (bu bv bw cu : Nat → K) (n m l : Nat) (hv : ∑ j ∈ Finset.range m, bv j = 1) (hw : ∑ k ∈ Finset.range l, bw k = 1) :
    ∑ k ∈ Finset.range l, ∑ j ∈ Finset.range m, ∑ i ∈ Finset.range n, bu i * bv j * bw k * cu i = ∑ i ∈ Finset.range n, cu i * bu i := by
  have e : ∀ k j, ∑ i ∈ Finset.range n, bu i * bv j * bw k * cu i = bw k * (bv j * ∑ i ∈ Finset.range n, cu i * bu i) := by
    intro k j
    rw [Finset.mul_sum, Finset.mul_sum]
    exact Finset.sum_congr rfl fun i _ => by ring
  simp only [e]
  simp only [← Finset.mul_sum, ← Finset.sum_mul, hv, hw, one_mul]

/-- A grid for which the volume can be built. -/
structure GridSettings.Proper (g : GridSettings K) : Prop where
  order : 0 < g.order.x ∧ 0 < g.order.y ∧ 0 < g.order.z
  elements : 0 < g.elements.x ∧ 0 < g.elements.y ∧ 0 < g.elements.z
  xyz : g.xyz.lower.x < g.xyz.upper.x ∧ g.xyz.lower.y < g.xyz.upper.y ∧ g.xyz.lower.z < g.xyz.upper.z
  uvw : g.uvw.lower.x < g.uvw.upper.x ∧ g.uvw.lower.y < g.uvw.upper.y ∧ g.uvw.lower.z < g.uvw.upper.z

/-- C86: the volume of either kind has in each direction as many control points as elements plus the order; at every point of the
parametric domain it is the point to which the mapping of the library sends it; the matrix holds the same points as the list. -/
theorem C86_volume (junk : Spline K → List K) {g : GridSettings K} (hg : g.Proper) {kind : String}
    (hk : kind = "open_knot_vector" ∨ kind = "non_open_knot_vector") :
    ∃ V, volume junk g kind = some V ∧ V.u.c.length = g.elements.x + g.order.x ∧ V.v.c.length = g.elements.y + g.order.y ∧
      V.w.c.length = g.elements.z + g.order.z ∧
      V.controlPoints.length = V.u.c.length * V.v.c.length * V.w.c.length ∧
      (∀ i j k, i < V.u.c.length → j < V.v.c.length → k < V.w.c.length →
        V.controlPoints[(k * V.v.c.length + j) * V.u.c.length + i]? = some (V.controlPointsMatrix i j k)) ∧
      ∀ q : V3 K, g.uvw.lower.x ≤ q.x ∧ q.x ≤ g.uvw.upper.x → g.uvw.lower.y ≤ q.y ∧ q.y ≤ g.uvw.upper.y →
        g.uvw.lower.z ≤ q.z ∧ q.z ≤ g.uvw.upper.z →
        volumeAt V.u.t V.v.t V.w.t g.order ⟨V.u.c.length, V.v.c.length, V.w.c.length⟩ V.controlPoints q = toGlobal q ⟨g.xyz, g.uvw⟩ := by
  obtain ⟨o, ho⟩ : ∃ o, (if kind = "open_knot_vector" then some true else if kind = "non_open_knot_vector" then some false else none) = some o := by
    rcases hk with rfl | rfl
    · exact ⟨true, by simp⟩
    · exact ⟨false, by simp⟩
  obtain ⟨u, hu, cu⟩ := C86_curve junk hg.order.1 hg.elements.1 hg.xyz.1.ne hg.uvw.1 o
  obtain ⟨v, hv, cv⟩ := C86_curve junk hg.order.2.1 hg.elements.2.1 hg.xyz.2.1.ne hg.uvw.2.1 o
  obtain ⟨w, hw, cw⟩ := C86_curve junk hg.order.2.2 hg.elements.2.2 hg.xyz.2.2.ne hg.uvw.2.2 o
  have lu : u.c.length = g.elements.x + g.order.x := by
    obtain ⟨s, h, -, hl, -⟩ := C86_knots junk hg.order.1 hg.elements.1 hg.xyz.1.ne hg.uvw.1 o
    rw [Option.some.inj (hu.symm.trans h)]; exact hl
  have lv : v.c.length = g.elements.y + g.order.y := by
    obtain ⟨s, h, -, hl, -⟩ := C86_knots junk hg.order.2.1 hg.elements.2.1 hg.xyz.2.1.ne hg.uvw.2.1 o
    rw [Option.some.inj (hv.symm.trans h)]; exact hl
  have lw : w.c.length = g.elements.z + g.order.z := by
    obtain ⟨s, h, -, hl, -⟩ := C86_knots junk hg.order.2.2 hg.elements.2.2 hg.xyz.2.2.ne hg.uvw.2.2 o
    rw [Option.some.inj (hw.symm.trans h)]; exact hl
  refine ⟨⟨u, v, w⟩, ?_, lu, lv, lw, ?_, ?_, ?_⟩
  · unfold volume
    rw [ho, Option.bind_some, hu, Option.bind_some, hv, Option.bind_some, hw, Option.map_some]
  · simp [Volume.controlPoints, List.length_flatMap]
    ring
  · intro i j k hi hj hk
    rw [controlPoints_get ⟨u, v, w⟩ hi hj hk, matrix_get ⟨u, v, w⟩ hi hj hk]
  · intro q hx hy hz
    obtain ⟨su, eu⟩ := cu q.x hx.1 hx.2
    obtain ⟨sv, ev⟩ := cv q.y hy.1 hy.2
    obtain ⟨sw, ew⟩ := cw q.z hz.1 hz.2
    have hcp : ∀ i j k, i < u.c.length → j < v.c.length → k < w.c.length →
        (Volume.mk u v w).controlPoints.getD ((k * v.c.length + j) * u.c.length + i) ⟨0, 0, 0⟩ = ⟨u.c.getD i 0, v.c.getD j 0, w.c.getD k 0⟩ := by
      intro i j k hi hj hk
      rw [List.getD_eq_getElem?_getD, controlPoints_get ⟨u, v, w⟩ hi hj hk, List.getD_eq_getElem _ _ hi, List.getD_eq_getElem _ _ hj,
        List.getD_eq_getElem _ _ hk]
      rfl
    have hsum : ∀ f : V3 K → K, ∑ k ∈ Finset.range w.c.length, ∑ j ∈ Finset.range v.c.length, ∑ i ∈ Finset.range u.c.length,
        basisOf u.t g.order.x i q.x * basisOf v.t g.order.y j q.y * basisOf w.t g.order.z k q.z *
          f ((Volume.mk u v w).controlPoints.getD ((k * v.c.length + j) * u.c.length + i) ⟨0, 0, 0⟩) =
        ∑ k ∈ Finset.range w.c.length, ∑ j ∈ Finset.range v.c.length, ∑ i ∈ Finset.range u.c.length,
        basisOf u.t g.order.x i q.x * basisOf v.t g.order.y j q.y * basisOf w.t g.order.z k q.z *
          f ⟨u.c.getD i 0, v.c.getD j 0, w.c.getD k 0⟩ := fun f =>
      Finset.sum_congr rfl fun k hk => Finset.sum_congr rfl fun j hj => Finset.sum_congr rfl fun i hi => by
        rw [hcp i j k (Finset.mem_range.1 hi) (Finset.mem_range.1 hj) (Finset.mem_range.1 hk)]
    have pos : ∀ {a b : K}, a < b → |b - a| = b - a := fun h => abs_of_pos (sub_pos.2 h)
    unfold volumeAt toGlobal computeScale
    dsimp only
    rw [hsum, hsum, hsum]
    dsimp only
    rw [pos hg.xyz.1, pos hg.xyz.2.1, pos hg.xyz.2.2, pos hg.uvw.1, pos hg.uvw.2.1, pos hg.uvw.2.2]
    congr 1
    · rw [tensor_sum (fun i => basisOf u.t g.order.x i q.x) (fun j => basisOf v.t g.order.y j q.y) (fun k => basisOf w.t g.order.z k q.z)
        (fun i => u.c.getD i 0) _ _ _ sv sw]
      refine eu.trans ?_
      ring
    · rw [Finset.sum_congr rfl fun k _ => Finset.sum_comm]
      have := tensor_sum (fun j => basisOf v.t g.order.y j q.y) (fun i => basisOf u.t g.order.x i q.x) (fun k => basisOf w.t g.order.z k q.z)
        (fun j => v.c.getD j 0) v.c.length u.c.length w.c.length su sw
      refine Eq.trans ?_ (this.trans (ev.trans ?_))
      · exact Finset.sum_congr rfl fun k _ => Finset.sum_congr rfl fun i _ => Finset.sum_congr rfl fun j _ => by ring
      · ring
    · have := tensor_sum (fun k => basisOf w.t g.order.z k q.z) (fun j => basisOf v.t g.order.y j q.y) (fun i => basisOf u.t g.order.x i q.x)
        (fun k => w.c.getD k 0) w.c.length v.c.length u.c.length sv su
      refine Eq.trans ?_ (this.trans (ew.trans ?_))
      · rw [Finset.sum_comm, Finset.sum_congr rfl fun j _ => Finset.sum_comm, Finset.sum_comm]
        exact Finset.sum_congr rfl fun i _ => Finset.sum_congr rfl fun j _ => Finset.sum_congr rfl fun k _ => by ring
      · ring

/-- C86: the knot spans of the volume are the cells of the background grid in parametric space, and the volume maps their corners to the
corners of the cells in space. -/
theorem C86_cells (junk : Spline K → List K) {g : GridSettings K} (hg : g.Proper) {kind : String}
    (hk : kind = "open_knot_vector" ∨ kind = "non_open_knot_vector") {v : V3 Nat}
    (hv : v.x < g.elements.x ∧ v.y < g.elements.y ∧ v.z < g.elements.z) :
    ∃ V, volume junk g kind = some V ∧ V.u.t[g.order.x + v.x]? = some (Grid.cellBox g.elements g.uvw v).lower.x ∧
      V.v.t[g.order.y + v.y]? = some (Grid.cellBox g.elements g.uvw v).lower.y ∧
      V.w.t[g.order.z + v.z]? = some (Grid.cellBox g.elements g.uvw v).lower.z ∧
      V.u.t[g.order.x + v.x + 1]? = some (Grid.cellBox g.elements g.uvw v).upper.x ∧
      V.v.t[g.order.y + v.y + 1]? = some (Grid.cellBox g.elements g.uvw v).upper.y ∧
      V.w.t[g.order.z + v.z + 1]? = some (Grid.cellBox g.elements g.uvw v).upper.z ∧
      volumeAt V.u.t V.v.t V.w.t g.order ⟨V.u.c.length, V.v.c.length, V.w.c.length⟩ V.controlPoints
        (Grid.cellBox g.elements g.uvw v).lower = (Grid.cellBox g.elements g.xyz v).lower ∧
      volumeAt V.u.t V.v.t V.w.t g.order ⟨V.u.c.length, V.v.c.length, V.w.c.length⟩ V.controlPoints
        (Grid.cellBox g.elements g.uvw v).upper = (Grid.cellBox g.elements g.xyz v).upper := by
  obtain ⟨V, hV, -, -, -, -, -, hmap⟩ := C86_volume junk hg hk
  obtain ⟨o, ho⟩ : ∃ o, (if kind = "open_knot_vector" then some true else if kind = "non_open_knot_vector" then some false else none) = some o := by
    rcases hk with rfl | rfl
    · exact ⟨true, by simp⟩
    · exact ⟨false, by simp⟩
  obtain ⟨u, hu, -, -, -, ku, -⟩ := C86_knots junk hg.order.1 hg.elements.1 hg.xyz.1.ne hg.uvw.1 o
  obtain ⟨v', hv', -, -, -, kv, -⟩ := C86_knots junk hg.order.2.1 hg.elements.2.1 hg.xyz.2.1.ne hg.uvw.2.1 o
  obtain ⟨w, hw, -, -, -, kw, -⟩ := C86_knots junk hg.order.2.2 hg.elements.2.2 hg.xyz.2.2.ne hg.uvw.2.2 o
  have e := hV
  unfold volume at e
  rw [ho, Option.bind_some, hu, Option.bind_some, hv', Option.bind_some, hw, Option.map_some] at e
  obtain rfl := Option.some.inj e
  have pos : ∀ {a b : K}, a < b → |b - a| = b - a := fun h => abs_of_pos (sub_pos.2 h)
  -- a border of a cell lies in the domain
  have bord : ∀ {a b : K} {n j : Nat}, a < b → 0 < n → j ≤ n → a ≤ a + (b - a) / n * j ∧ a + (b - a) / n * j ≤ b := by
    intro a b n j hab hn hj
    have hn' : (0 : K) < n := Nat.cast_pos.2 hn
    have hj' : (j : K) ≤ n := Nat.cast_le.2 hj
    have h0 : 0 ≤ (b - a) / n := div_nonneg (sub_nonneg.2 hab.le) hn'.le
    have e : (b - a) / n * n = b - a := by field_simp
    have h1 : 0 ≤ (b - a) / n * j := mul_nonneg h0 (Nat.cast_nonneg _)
    have h2 : (b - a) / n * j ≤ (b - a) / n * n := mul_le_mul_of_nonneg_left hj' h0
    constructor <;> linarith
  have bord1 : ∀ {a b : K} {n j : Nat}, a < b → j < n → a ≤ a + (b - a) / n * (1 + j) ∧ a + (b - a) / n * (1 + j) ≤ b := by
    intro a b n j hab hj
    have := bord (a := a) (b := b) (n := n) (j := j + 1) hab (by omega) (by omega)
    push_cast at this
    rwa [add_comm (1 : K)]
  -- the affine map sends borders to borders
  have im : ∀ {a b c d : K} {n : Nat} {r : K}, a < b → 0 < n →
      (a + (b - a) / n * r - a) * ((d - c) / (b - a)) + c = c + (d - c) / n * r := by
    intro a b c d n r hab hn
    have hn' : (n : K) ≠ 0 := Nat.cast_ne_zero.2 (by omega)
    have : b - a ≠ 0 := sub_ne_zero.2 hab.ne'
    field_simp
    ring
  refine ⟨_, hV, ?_, ?_, ?_, ?_, ?_, ?_, ?_, ?_⟩
  · rw [ku _ hv.1.le]; simp only [Grid.cellBox, Grid.delta, pos hg.uvw.1]; congr 1; ring
  · rw [kv _ hv.2.1.le]; simp only [Grid.cellBox, Grid.delta, pos hg.uvw.2.1]; congr 1; ring
  · rw [kw _ hv.2.2.le]; simp only [Grid.cellBox, Grid.delta, pos hg.uvw.2.2]; congr 1; ring
  · rw [Nat.add_assoc, ku (v.x + 1) hv.1]; simp only [Grid.cellBox, Grid.delta, pos hg.uvw.1]; congr 1; push_cast; ring
  · rw [Nat.add_assoc, kv (v.y + 1) hv.2.1]; simp only [Grid.cellBox, Grid.delta, pos hg.uvw.2.1]; congr 1; push_cast; ring
  · rw [Nat.add_assoc, kw (v.z + 1) hv.2.2]; simp only [Grid.cellBox, Grid.delta, pos hg.uvw.2.2]; congr 1; push_cast; ring
  · rw [hmap]
    · simp only [Grid.cellBox, Grid.delta, toGlobal, computeScale, pos hg.uvw.1, pos hg.uvw.2.1, pos hg.uvw.2.2, pos hg.xyz.1,
        pos hg.xyz.2.1, pos hg.xyz.2.2]
      rw [im hg.uvw.1 hg.elements.1, im hg.uvw.2.1 hg.elements.2.1, im hg.uvw.2.2 hg.elements.2.2]
    · simp only [Grid.cellBox, Grid.delta, pos hg.uvw.1]; exact bord hg.uvw.1 hg.elements.1 hv.1.le
    · simp only [Grid.cellBox, Grid.delta, pos hg.uvw.2.1]; exact bord hg.uvw.2.1 hg.elements.2.1 hv.2.1.le
    · simp only [Grid.cellBox, Grid.delta, pos hg.uvw.2.2]; exact bord hg.uvw.2.2 hg.elements.2.2 hv.2.2.le
  · rw [hmap]
    · simp only [Grid.cellBox, Grid.delta, toGlobal, computeScale, pos hg.uvw.1, pos hg.uvw.2.1, pos hg.uvw.2.2, pos hg.xyz.1,
        pos hg.xyz.2.1, pos hg.xyz.2.2]
      rw [im hg.uvw.1 hg.elements.1, im hg.uvw.2.1 hg.elements.2.1, im hg.uvw.2.2 hg.elements.2.2]
    · simp only [Grid.cellBox, Grid.delta, pos hg.uvw.1]; exact bord1 hg.uvw.1 hv.1
    · simp only [Grid.cellBox, Grid.delta, pos hg.uvw.2.1]; exact bord1 hg.uvw.2.1 hv.2.1
    · simp only [Grid.cellBox, Grid.delta, pos hg.uvw.2.2]; exact bord1 hg.uvw.2.2 hv.2.2

/-- C86: other names of knot vectors raise an exception. -/
theorem C86_kind (junk : Spline K → List K) (g : GridSettings K) {kind : String} (h1 : kind ≠ "open_knot_vector")
    (h2 : kind ≠ "non_open_knot_vector") : volume junk g kind = none := by
  unfold volume
  rw [if_neg h1, if_neg h2]
  rfl

/-- A grid for examples. -/
def exGrid : GridSettings ℚ := ⟨⟨2, 1, 3⟩, ⟨4, 1, 2⟩, ⟨⟨-1, 0, 2⟩, ⟨3, 5, 8⟩⟩, ⟨⟨0, 0, -1⟩, ⟨1, 2, 1⟩⟩⟩

/-- A grid for which the theorems above hold. -/
theorem exGrid_proper : exGrid.Proper :=
  ⟨by simp [exGrid], by simp [exGrid], by norm_num [exGrid], by norm_num [exGrid]⟩

/-- The knots and the coefficients of order two with four elements, open and not open. -/
example : (construct (fun _ => [7, 7]) 2 4 (-1) 3 0 1 true : Option (Spline ℚ)).map (fun s => (s.t, s.c)) =
    some ([0, 0, 0, 1 / 4, 1 / 2, 3 / 4, 1, 1, 1], [-1, -1 / 2, 1 / 2, 3 / 2, 5 / 2, 3]) := by decide +kernel
example : (construct (fun _ => [7, 7]) 2 4 (-1) 3 0 1 false : Option (Spline ℚ)).map (fun s => (s.t, s.c)) =
    some ([-1 / 2, -1 / 4, 0, 1 / 4, 1 / 2, 3 / 4, 1, 5 / 4, 3 / 2], [-3 / 2, -1 / 2, 1 / 2, 3 / 2, 5 / 2, 7 / 2]) := by decide +kernel

/-! ## Mapping of points -/

omit [FloorRing K] in
/-- C87: the mapping functions of the python interface give the same points as those of the library; they raise an exception exactly
if the box from which they map is flat. -/
theorem C87_same (p : V3 K) (xyz uvw : Box K) :
    (globalToParam p xyz uvw = if xyz.upper.x = xyz.lower.x ∨ xyz.upper.y = xyz.lower.y ∨ xyz.upper.z = xyz.lower.z then none
      else some (toParametric p ⟨xyz, uvw⟩)) ∧
    (paramToGlobal p xyz uvw = if uvw.upper.x = uvw.lower.x ∨ uvw.upper.y = uvw.lower.y ∨ uvw.upper.z = uvw.lower.z then none
      else some (toGlobal p ⟨xyz, uvw⟩)) := by
  have key : ∀ p lx ux lu uu : K, toParam1 p lx ux lu uu = if ux = lx then none else some ((p - lx) * (|uu - lu| / |ux - lx|) + lu) := by
    intro p lx ux lu uu
    unfold toParam1
    simp only [abs_eq_zero, sub_eq_zero, mul_div_assoc]
  constructor
  · unfold globalToParam
    simp only [key]
    by_cases h1 : xyz.upper.x = xyz.lower.x
    · simp [h1]
    by_cases h2 : xyz.upper.y = xyz.lower.y
    · simp [h1, h2]
    by_cases h3 : xyz.upper.z = xyz.lower.z
    · simp [h1, h2, h3]
    simp [h1, h2, h3, toParametric, computeScale]
  · unfold paramToGlobal
    simp only [key]
    by_cases h1 : uvw.upper.x = uvw.lower.x
    · simp [h1]
    by_cases h2 : uvw.upper.y = uvw.lower.y
    · simp [h1, h2]
    by_cases h3 : uvw.upper.z = uvw.lower.z
    · simp [h1, h2, h3]
    simp [h1, h2, h3, toGlobal, computeScale]

omit [FloorRing K] in
/-- C87: a point that is mapped to parametric space and back is the same again, and vice versa. -/
theorem C87_round_trip {p q : V3 K} {xyz uvw : Box K}
    (hx : xyz.upper.x ≠ xyz.lower.x ∧ xyz.upper.y ≠ xyz.lower.y ∧ xyz.upper.z ≠ xyz.lower.z)
    (hu : uvw.upper.x ≠ uvw.lower.x ∧ uvw.upper.y ≠ uvw.lower.y ∧ uvw.upper.z ≠ uvw.lower.z) :
    globalToParam p xyz uvw = some q ↔ paramToGlobal q xyz uvw = some p := by
  have key : ∀ p lx ux lu uu : K, toParam1 p lx ux lu uu = if ux = lx then none else some ((p - lx) * (|uu - lu| / |ux - lx|) + lu) := by
    intro p lx ux lu uu
    unfold toParam1
    simp only [abs_eq_zero, sub_eq_zero, mul_div_assoc]
  have inv : ∀ {p q lx ux lu uu : K}, ux ≠ lx → uu ≠ lu →
      ((p - lx) * (|uu - lu| / |ux - lx|) + lu = q ↔ (q - lu) * (|ux - lx| / |uu - lu|) + lx = p) := by
    intro p q lx ux lu uu h1 h2
    have e1 : |ux - lx| ≠ 0 := abs_ne_zero.2 (sub_ne_zero.2 h1)
    have e2 : |uu - lu| ≠ 0 := abs_ne_zero.2 (sub_ne_zero.2 h2)
    constructor
    · rintro rfl; field_simp; ring
    · rintro rfl; field_simp; ring
  unfold globalToParam paramToGlobal
  simp only [key, if_neg hx.1, if_neg hx.2.1, if_neg hx.2.2, if_neg hu.1, if_neg hu.2.1, if_neg hu.2.2, Option.bind_some, Option.map_some]
  obtain ⟨p1, p2, p3⟩ := p
  obtain ⟨q1, q2, q3⟩ := q
  simp only [Option.some.injEq, V3.mk.injEq]
  rw [inv hx.1 hu.1, inv hx.2.1 hu.2.1, inv hx.2.2 hu.2.2]

example : globalToParam (K := ℚ) ⟨1, 5, 3⟩ exGrid.xyz exGrid.uvw = some ⟨1 / 2, 2, -2 / 3⟩ := by decide +kernel

/-! ## All integration points -/

omit [FloorRing K] [IsStrictOrderedRing K] in
theorem callWeight_none (q : VolPoint K) : callWeight q = none := by
  unfold callWeight
  rw [if_neg (by decide)]

omit [FloorRing K] [IsStrictOrderedRing K] in
theorem gather_step (e : Bool × List (VolPoint K)) (acc : List (VolPoint K)) :
    (if e.1 then e.2.foldlM (fun acc q => (callWeight q).map fun w => if w > 0 then acc ++ [q] else acc) acc
      else some (e.2.foldl (fun acc q => acc ++ [q]) acc)) = if e.1 = true ∧ e.2 ≠ [] then none else some (acc ++ e.2) := by
  obtain ⟨t, l⟩ := e
  cases t
  · have : ∀ (l acc : List (VolPoint K)), l.foldl (fun acc q => acc ++ [q]) acc = acc ++ l := by
      intro l
      induction l with
      | nil => intro acc; simp
      | cons x l ih => intro acc; rw [List.foldl_cons, ih]; simp
    simp [this]
  · cases l with
    | nil => simp
    | cons q l =>
      simp only [if_true, List.foldlM_cons, callWeight_none]
      rfl

omit [FloorRing K] [IsStrictOrderedRing K] in
/-- C88, partial: if trimmed elements have no points, then the list of all integration points holds the points of all elements, element
after element.  The full statement is for all elements, with the points of trimmed elements whose weight is positive; see
`C88_false_of_code`. -/
theorem C88_points_partial (es : List (Bool × List (VolPoint K))) (h : ∀ e ∈ es, e.1 = true → e.2 = []) :
    gatherPoints es = some (es.flatMap fun e => e.2) := by
  have key : ∀ (es : List (Bool × List (VolPoint K))) (acc : List (VolPoint K)), (∀ e ∈ es, e.1 = true → e.2 = []) →
      es.foldlM (fun acc e =>
        if e.1 then e.2.foldlM (fun acc q => (callWeight q).map fun w => if w > 0 then acc ++ [q] else acc) acc
        else some (e.2.foldl (fun acc q => acc ++ [q]) acc)) acc = some (acc ++ es.flatMap fun e => e.2) := by
    intro es
    induction es with
    | nil => intro acc _; simp
    | cons e es ih =>
      intro acc h
      rw [List.foldlM_cons, gather_step, if_neg fun hc => hc.2 (h e List.mem_cons_self hc.1)]
      change List.foldlM _ _ _ = _
      rw [ih _ fun e he => h e (List.mem_cons_of_mem _ he), List.flatMap_cons, List.append_assoc]
  have := key es [] h
  rwa [List.nil_append] at this

omit [FloorRing K] [IsStrictOrderedRing K] in
/-- C88 is false of the code: as soon as a trimmed element has a point, the function raises an exception, because it calls `Weight()`, while
the bindings export the weight as property `weight`. -/
theorem C88_false_of_code (es : List (Bool × List (VolPoint K))) (h : ∃ e ∈ es, e.1 = true ∧ e.2 ≠ []) : gatherPoints es = none := by
  have key : ∀ (es : List (Bool × List (VolPoint K))) (acc : List (VolPoint K)), (∃ e ∈ es, e.1 = true ∧ e.2 ≠ []) →
      es.foldlM (fun acc e =>
        if e.1 then e.2.foldlM (fun acc q => (callWeight q).map fun w => if w > 0 then acc ++ [q] else acc) acc
        else some (e.2.foldl (fun acc q => acc ++ [q]) acc)) acc = none := by
    intro es
    induction es with
    | nil => rintro acc ⟨e, he, _⟩; exact absurd he List.not_mem_nil
    | cons e es ih =>
      rintro acc ⟨x, hx, h⟩
      rw [List.foldlM_cons, gather_step]
      by_cases hc : e.1 = true ∧ e.2 ≠ []
      · rw [if_pos hc]; rfl
      · rw [if_neg hc]
        rcases List.mem_cons.1 hx with rfl | hx
        · exact absurd h hc
        · exact ih _ ⟨x, hx, h⟩
  exact key es [] h

/-- Two untrimmed elements and a trimmed one that is empty. -/
example : gatherPoints (K := ℚ) [(false, [⟨⟨0, 0, 0⟩, 1⟩, ⟨⟨1, 0, 0⟩, 0⟩]), (true, []), (false, [⟨⟨2, 0, 0⟩, 0⟩])] =
    some [⟨⟨0, 0, 0⟩, 1⟩, ⟨⟨1, 0, 0⟩, 0⟩, ⟨⟨2, 0, 0⟩, 0⟩] := by decide +kernel
/-- A trimmed element with one point. -/
example : gatherPoints (K := ℚ) [(true, [⟨⟨0, 0, 0⟩, 1⟩])] = none := by decide +kernel

end QuESo.BSpline
