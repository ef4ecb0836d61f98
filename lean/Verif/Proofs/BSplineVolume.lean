import Verif.Model.BSplineVolume
import Verif.Proofs.BSplineBasis
import Mathlib.Tactic.Positivity
import Mathlib.Data.List.GetD
import Mathlib.Data.List.TakeWhile

/-!
# The splines that the script builds
-/
namespace QuESo.BSpline
open QuESo.BSplineSpec
variable {K : Type _} [Field K] [LinearOrder K]

omit [LinearOrder K] in
theorem knots_insert (t : List K) (x : K) {l : Nat} (hl : l + 1 ≤ t.length) (i : Nat) :
    knots (t.take (l + 1) ++ x :: t.drop (l + 1)) i = if i ≤ l then knots t i else if i = l + 1 then x else knots t (i - 1) := by
  unfold knots
  have hlen : (t.take (l + 1)).length = l + 1 := by rw [List.length_take]; omega
  simp only [List.getD_eq_getElem?_getD]
  by_cases h1 : i ≤ l
  · rw [if_pos h1, List.getElem?_append_left (by omega), List.getElem?_take_of_lt (by omega)]
  · rw [if_neg h1, List.getElem?_append_right (by omega), hlen]
    by_cases h2 : i = l + 1
    · rw [if_pos h2, h2, Nat.sub_self]; rfl
    · rw [if_neg h2]
      obtain ⟨j, hj⟩ : ∃ j, i - (l + 1) = j + 1 := ⟨i - (l + 1) - 1, by omega⟩
      rw [hj, List.getElem?_cons_succ, List.getElem?_drop]
      congr 2
      omega

omit [LinearOrder K] in
/-- The sum of knots over the place where one is inserted. -/
theorem sum_insert (t t' : Nat → K) (x : K) {l i : Nat} (h : ∀ j, t' j = if j ≤ l then t j else if j = l + 1 then x else t (j - 1))
    (hi : i ≤ l) : ∀ m, l ≤ i + m → knotSum t' (m + 1) i = knotSum t m i + x
  | 0, hm => by
    rw [knotSum_succ, h, if_neg (by omega), if_pos (by omega)]
    simp [knotSum]
  | m + 1, hm => by
    by_cases e : l = i + m + 1
    · have e1 : knotSum t' (m + 1) i = knotSum t (m + 1) i := by
        refine Finset.sum_congr rfl fun j hj => ?_
        rw [Finset.mem_range] at hj
        rw [h, if_pos (by omega)]
      rw [knotSum_succ t' (m + 1), e1, h, if_neg (by omega), if_pos (by omega)]
    · rw [knotSum_succ t' (m + 1), sum_insert t t' x h hi m (by omega), knotSum_succ t m, h, if_neg (by omega), if_neg (by omega)]
      rw [show i + (m + 1) + 1 - 1 = i + m + 1 by omega]
      ring

omit [LinearOrder K] in
theorem newCoeff_spec {t c : List K} {p l n : Nat} {x a b : K} (hp : 0 < p) (hpl : p ≤ l) (hln : l < n) (hn : t.length = n + p + 1)
    (hc : ∀ i < n, c.getD i 0 = a + b * (knotSum (knots t) p i / p))
    (hne : ∀ i, i ≤ l → l < i + p → knots t (i + p) - knots t i ≠ 0) (hp0 : (p : K) ≠ 0) {i : Nat} (hi : i ≤ n) :
    newCoeff t c p l x i = a + b * (knotSum (knots (t.take (l + 1) ++ x :: t.drop (l + 1))) p i / p) := by
  have hk := knots_insert t x (l := l) (by omega)
  generalize knots (t.take (l + 1) ++ x :: t.drop (l + 1)) = t' at hk
  unfold newCoeff
  by_cases h1 : i + p ≤ l
  · rw [if_pos h1, hc i (by omega)]
    congr 3
    refine Finset.sum_congr rfl fun j hj => ?_
    rw [Finset.mem_range] at hj
    rw [hk, if_pos (by omega)]
  · rw [if_neg h1]
    by_cases h2 : i ≤ l
    · rw [if_pos h2]
      obtain ⟨q, rfl⟩ : ∃ q, p = q + 1 := ⟨p - 1, by omega⟩
      have hs := sum_insert (knots t) t' x hk h2 q (by omega)
      have hne' := hne i h2 (by omega)
      have e1 := hc i (by omega)
      have e2 := hc (i - 1) (by omega)
      rw [knotSum_succ] at e1
      rw [knotSum_pred _ _ _ (by omega)] at e2
      change (x - knots t i) / (knots t (i + (q + 1)) - knots t i) * c.getD i 0 +
        (1 - (x - knots t i) / (knots t (i + (q + 1)) - knots t i)) * c.getD (i - 1) 0 = _
      rw [e1, e2, hs, show i + q + 1 = i + (q + 1) by omega]
      field_simp
      ring
    · rw [if_neg h2, hc (i - 1) (by omega)]
      congr 3
      refine Finset.sum_congr rfl fun j hj => ?_
      rw [hk, if_neg (by omega), if_neg (by omega)]
      congr 1
      omega

/-- A spline with knots `low`, `mid` and `up` whose coefficients are an affine function of the means of knots. -/
structure Fine (low mid up : List K) (p : Nat) (a b : K) (s : Spline K) : Prop where
  t : s.t = low ++ mid ++ up
  k : s.k = p
  c : p + 1 + mid.length ≤ s.c.length
  coeff : ∀ i < p + 1 + mid.length, s.c.getD i 0 = a + b * (knotSum (knots s.t) p i / p)

/-- Knots at the ends. -/
structure Ends (low up : List K) (p : Nat) (lu uu : K) : Prop where
  lenLow : low.length = p + 1
  lenUp : up.length = p + 1
  last : low.getD p 0 = lu
  first : up.getD 0 0 = uu
  le : ∀ y ∈ low, y ≤ lu
  ge : ∀ y ∈ up, uu ≤ y
  lows : low.Pairwise (· ≤ ·)
  ups : up.Pairwise (· ≤ ·)

theorem knots_sorted {t : List K} (h : t.Pairwise (· ≤ ·)) {m : Nat} (hm : m < t.length) : Ordered (knots t) m := by
  intro i j hij hj
  unfold knots
  rcases lt_or_eq_of_le hij with hij | rfl
  · rw [List.getD_eq_getElem _ _ (by omega), List.getD_eq_getElem _ _ (by omega)]
    exact List.pairwise_iff_getElem.1 h i j _ _ hij
  · exact le_rfl

variable {low up : List K} {p : Nat} {lu uu : K}

theorem Ends.sorted (E : Ends low up p lu uu) {mid : List K} (hm : mid.Pairwise (· ≤ ·)) (hmid : ∀ y ∈ mid, lu ≤ y ∧ y ≤ uu)
    (hlu : lu ≤ uu) : (low ++ mid ++ up).Pairwise (· ≤ ·) := by
  rw [List.pairwise_append, List.pairwise_append]
  refine ⟨⟨E.lows, hm, fun x hx y hy => (E.le x hx).trans (hmid y hy).1⟩, E.ups, fun x hx y hy => ?_⟩
  rcases List.mem_append.1 hx with hx | hx
  · exact (E.le x hx).trans (hlu.trans (E.ge y hy))
  · exact (hmid x hx).2.trans (E.ge y hy)

omit [LinearOrder K] in
theorem getD_low (mid : List K) (up : List K) (hl : low.length = p + 1) : (low ++ mid ++ up).getD p 0 = low.getD p 0 := by
  rw [List.append_assoc, List.getD_append _ _ _ _ (by omega)]

omit [LinearOrder K] in
theorem getD_up (mid : List K) (up : List K) (hl : low.length = p + 1) :
    (low ++ mid ++ up).getD (p + 1 + mid.length) 0 = up.getD 0 0 := by
  rw [List.getD_append_right _ _ _ _ (by rw [List.length_append]; omega), List.length_append, hl, Nat.sub_self]

theorem mkSpline_ok (E : Ends low up p lu uu) {mid : List K} (hm : mid.Pairwise (· ≤ ·)) (hmid : ∀ y ∈ mid, lu ≤ y ∧ y ≤ uu)
    (hlu : lu < uu) {c : List K} (hc : p + 1 + mid.length ≤ c.length) :
    mkSpline (low ++ mid ++ up) c p = some ⟨low ++ mid ++ up, c, p⟩ := by
  have hlen : (low ++ mid ++ up).length = p + 1 + mid.length + (p + 1) := by
    rw [List.length_append, List.length_append, E.lenLow, E.lenUp]
  have hn : (low ++ mid ++ up).length - p - 1 = p + 1 + mid.length := by omega
  unfold mkSpline
  dsimp only
  rw [if_neg (by omega), if_neg (not_not.2 (E.sorted hm hmid hlu.le)), hn, getD_low _ _ E.lenLow, getD_up _ _ E.lenLow, E.last, E.first,
    if_neg hlu.ne, if_neg (by omega)]

variable [IsStrictOrderedRing K]

theorem insert_fine (E : Ends low up p lu uu) (hp : 0 < p) {mid : List K} (hm : mid.Pairwise (· ≤ ·)) (hmid : ∀ y ∈ mid, lu ≤ y ∧ y ≤ uu)
    (hlu : lu < uu) {a b : K} {s : Spline K} (F : Fine low mid up p a b s) (junk : Spline K → List K) {x : K} (hx : lu ≤ x)
    (hxu : x < uu) (hmx : ∀ y ∈ mid, y ≤ x) : ∃ s', insert junk x s = some s' ∧ Fine low (mid ++ [x]) up p a b s' := by
  obtain ⟨t, c, k⟩ := s
  obtain ⟨ht, hk, hc, hco⟩ := F
  dsimp only at ht hk hc hco
  subst hk
  have hlen : t.length = k + 1 + mid.length + (k + 1) := by
    rw [ht, List.length_append, List.length_append, E.lenLow, E.lenUp]
  have hn : t.length - k - 1 = k + 1 + mid.length := by omega
  have hI : interval t k x = k + mid.length := by
    unfold interval
    have e : ((t.drop (k + 1)).take (t.length - 2 * k - 2)) = mid := by
      rw [hlen, ht, List.append_assoc, ← E.lenLow, List.drop_left,
        show low.length + mid.length + low.length - 2 * k - 2 = mid.length by rw [E.lenLow]; omega, List.take_left]
    rw [e]
    congr 1
    rw [List.takeWhile_eq_self_iff.2 fun y hy => by simpa using hmx y hy]
  have htake : t.take (k + mid.length + 1) = low ++ mid := by
    rw [ht, show k + mid.length + 1 = (low ++ mid).length by rw [List.length_append, E.lenLow]; omega, List.take_left]
  have hdrop : t.drop (k + mid.length + 1) = up := by
    rw [ht, show k + mid.length + 1 = (low ++ mid).length by rw [List.length_append, E.lenLow]; omega, List.drop_left]
  have hnew : t.take (k + mid.length + 1) ++ x :: t.drop (k + mid.length + 1) = low ++ (mid ++ [x]) ++ up := by
    rw [htake, hdrop]; simp
  have hsort := knots_sorted (E.sorted hm hmid hlu.le) (m := t.length - 1) (by rw [← ht]; omega)
  rw [← ht] at hsort
  have hup : knots t (k + 1 + mid.length) = uu := by
    unfold knots; rw [ht, getD_up _ _ E.lenLow, E.first]
  have hlast : knots t (k + mid.length) ≤ x := by
    unfold knots
    rw [ht, List.getD_append _ _ _ _ (by rw [List.length_append, E.lenLow]; omega)]
    have hmem : (low ++ mid).getD (k + mid.length) 0 ∈ low ++ mid := by
      rw [List.getD_eq_getElem _ _ (by rw [List.length_append, E.lenLow]; omega)]
      exact List.getElem_mem _
    rcases List.mem_append.1 hmem with h | h
    · exact (E.le _ h).trans hx
    · exact hmx _ h
  refine ⟨⟨low ++ (mid ++ [x]) ++ up, (List.range (k + 1 + mid.length + 1)).map (newCoeff t c k (k + mid.length) x) ++ junk ⟨t, c, k⟩, k⟩,
    ?_, ⟨rfl, rfl, ?_, ?_⟩⟩
  · unfold insert
    dsimp only
    rw [hI, hn, if_neg, hnew]
    · refine mkSpline_ok E ?_ ?_ hlu ?_
      · rw [List.pairwise_append]
        exact ⟨hm, List.pairwise_singleton _ _, fun y hy z hz => by rw [List.mem_singleton.1 hz]; exact hmx y hy⟩
      · intro y hy
        rcases List.mem_append.1 hy with hy | hy
        · exact hmid y hy
        · rw [List.mem_singleton.1 hy]; exact ⟨hx, hxu.le⟩
      · simp; omega
    · have e1 : t.getD k 0 = lu := by rw [ht, getD_low _ _ E.lenLow, E.last]
      have e2 : t.getD (k + 1 + mid.length) 0 = uu := hup
      rw [e1, e2]
      rintro (h | h)
      · exact absurd hx (not_le.2 h)
      · exact absurd hxu (not_lt.2 h.le)
  · simp; omega
  · intro i hi
    rw [List.length_append, List.length_singleton] at hi
    dsimp only
    rw [← hnew, List.getD_append _ _ _ _ (by simp; omega), List.getD_eq_getElem _ _ (by simp; omega), List.getElem_map, List.getElem_range]
    refine newCoeff_spec (n := k + 1 + mid.length) hp (by omega) (by omega) (by omega) hco (fun j h1 h2 => ?_)
      (Nat.cast_ne_zero.2 (by omega)) (by omega)
    have hj1 : knots t j ≤ knots t (k + mid.length) := hsort _ _ h1 (by omega)
    have hj2 : knots t (k + 1 + mid.length) ≤ knots t (j + k) := hsort _ _ (by omega) (by omega)
    rw [hup] at hj2
    exact sub_ne_zero.2 (ne_of_gt (lt_of_le_of_lt (hj1.trans hlast) (lt_of_lt_of_le hxu hj2)))

theorem inserts_fine (E : Ends low up p lu uu) (hp : 0 < p) (hlu : lu < uu) {a b : K} (junk : Spline K → List K) :
    ∀ (xs mid : List K) (s : Spline K), (mid ++ xs).Pairwise (· ≤ ·) → (∀ y ∈ mid ++ xs, lu ≤ y ∧ y < uu) →
      Fine low mid up p a b s → ∃ s', xs.foldlM (fun s x => insert junk x s) s = some s' ∧ Fine low (mid ++ xs) up p a b s'
  | [], mid, s, _, _, F => ⟨s, rfl, by rw [List.append_nil]; exact F⟩
  | x :: xs, mid, s, hs, hb, F => by
    obtain ⟨s1, h1, F1⟩ := insert_fine E hp (List.pairwise_append.1 hs).1
      (fun y hy => let ⟨a, b⟩ := hb y (List.mem_append_left _ hy); ⟨a, b.le⟩) hlu F junk (x := x)
      (hb x (by simp)).1 (hb x (by simp)).2
      (fun y hy => (List.pairwise_append.1 hs).2.2 y hy x (by simp))
    have e : mid ++ x :: xs = mid ++ [x] ++ xs := by simp
    rw [e] at hs hb
    obtain ⟨s2, h2, F2⟩ := inserts_fine E hp hlu junk xs (mid ++ [x]) s1 hs hb F1
    refine ⟨s2, ?_, by rw [e]; exact F2⟩
    rw [List.foldlM_cons, h1]
    exact h2

/-! ## The start -/

/-- The knots before the domain and at its lower end. -/
def lowKnots (p : Nat) (lu du : K) (isOpen : Bool) : List K :=
  (List.range (p + 1)).map fun (i : Nat) => if isOpen then lu else lu - ((p : K) - (i : K)) * du

/-- The knots at the upper end of the domain and behind it. -/
def upKnots (p : Nat) (uu du : K) (isOpen : Bool) : List K :=
  (List.range (p + 1)).map fun (i : Nat) => if isOpen then uu else uu + (i : K) * du

theorem endKnots_eq (p : Nat) (lu uu du : K) (isOpen : Bool) :
    endKnots p lu uu du isOpen = lowKnots p lu du isOpen ++ [] ++ upKnots p uu du isOpen := by
  unfold endKnots lowKnots upKnots
  cases isOpen <;> simp [List.map_const']

theorem ends_ok (p : Nat) (lu uu du : K) (isOpen : Bool) (hdu : 0 ≤ du) : Ends (lowKnots p lu du isOpen) (upKnots p uu du isOpen) p lu uu := by
  have mono : ∀ (f : Nat → K), (∀ i j, i < j → j ≤ p → f i ≤ f j) → ((List.range (p + 1)).map f).Pairwise (· ≤ ·) := by
    intro f hf
    rw [List.pairwise_iff_getElem]
    intro i j hi hj hij
    simp only [List.getElem_map, List.getElem_range]
    exact hf i j hij (by simp at hj; omega)
  have hd : ∀ i j : Nat, i < j → (i : K) * du ≤ (j : K) * du := fun i j h =>
    mul_le_mul_of_nonneg_right (Nat.cast_le.2 h.le) hdu
  have hle : ∀ i : Nat, i ≤ p → (i : K) * du ≤ (p : K) * du := fun i h => mul_le_mul_of_nonneg_right (Nat.cast_le.2 h) hdu
  refine ⟨by simp [lowKnots], by simp [upKnots], ?_, ?_, ?_, ?_, mono _ ?_, mono _ ?_⟩
  · unfold lowKnots
    rw [List.getD_eq_getElem _ _ (by simp)]
    cases isOpen <;> simp
  · unfold upKnots
    rw [List.getD_eq_getElem _ _ (by simp)]
    cases isOpen <;> simp
  · intro y hy
    obtain ⟨i, hi, rfl⟩ := List.mem_map.1 hy
    have := hle i (by simp at hi; omega)
    cases isOpen
    · simp only [Bool.false_eq_true, if_false]; linarith
    · simp
  · intro y hy
    obtain ⟨i, hi, rfl⟩ := List.mem_map.1 hy
    have : 0 ≤ (i : K) * du := mul_nonneg (Nat.cast_nonneg _) hdu
    cases isOpen
    · simp only [Bool.false_eq_true, if_false]; linarith
    · simp
  · intro i j hij _
    have := hd i j hij
    cases isOpen
    · simp only [Bool.false_eq_true, if_false]; linarith
    · simp
  · intro i j hij _
    have := hd i j hij
    cases isOpen
    · simp only [Bool.false_eq_true, if_false]; linarith
    · simp

variable [FloorRing K]

theorem arange_eq {start stop step : K} {n : Nat} (h0 : step ≠ 0) (h1 : (stop - start) / step = n - 1 / 2) :
    arange start stop step = some ((List.range n).map fun (i : Nat) => start + (i : K) * step) := by
  unfold arange
  rw [if_neg h0, h1]
  have e : ⌈(n : K) - 1 / 2⌉₊ = n := by
    rcases Nat.eq_zero_or_pos n with rfl | hn
    · rw [Nat.ceil_eq_zero]; norm_num
    · rw [Nat.ceil_eq_iff (by omega)]
      rw [Nat.cast_sub (by omega)]
      constructor <;> push_cast <;> linarith
  rw [e]

/-- The sums of knots before knots are inserted. -/
theorem knotSum_ends (p : Nat) (hp : 0 < p) (lu uu du : K) (isOpen : Bool) : ∀ i, i ≤ p →
    knotSum (knots (lowKnots p lu du isOpen ++ [] ++ upKnots p uu du isOpen)) p i =
      p * lu + i * (uu - lu) + if isOpen then 0 else du * (p - 1) * (i - p / 2) := by
  have kl : ∀ i, i ≤ p → knots (lowKnots p lu du isOpen ++ [] ++ upKnots p uu du isOpen) i =
      if isOpen then lu else lu - ((p : K) - (i : K)) * du := by
    intro i hi
    unfold knots
    rw [List.append_nil, List.getD_append _ _ _ _ (by simp [lowKnots]; omega), List.getD_eq_getElem _ _ (by simp [lowKnots]; omega)]
    simp [lowKnots]
  have ku : ∀ i, i ≤ p → knots (lowKnots p lu du isOpen ++ [] ++ upKnots p uu du isOpen) (p + 1 + i) =
      if isOpen then uu else uu + (i : K) * du := by
    intro i hi
    unfold knots
    have hl : (lowKnots p lu du isOpen).length = p + 1 := by simp [lowKnots]
    rw [List.append_nil, List.getD_append_right _ _ _ _ (by omega), hl, Nat.add_sub_cancel_left,
      List.getD_eq_getElem _ _ (by simp [upKnots]; omega)]
    simp [upKnots]
  generalize knots (lowKnots p lu du isOpen ++ [] ++ upKnots p uu du isOpen) = t at kl ku
  have base : ∀ m, m ≤ p → knotSum t m 0 = m * lu - if isOpen then 0 else du * (m * (p - 1) - m * (m - 1) / 2) := by
    intro m
    induction m with
    | zero => intro _; simp [knotSum]
    | succ m ih =>
      intro hm
      rw [knotSum_succ, ih (by omega), show 0 + m + 1 = m + 1 by omega, kl _ hm]
      cases isOpen
      · simp only [Bool.false_eq_true, if_false]; push_cast; ring
      · simp; ring
  intro i
  induction i with
  | zero =>
    intro _
    rw [base p le_rfl]
    cases isOpen
    · simp only [Bool.false_eq_true, if_false]; push_cast; ring
    · simp
  | succ i ih =>
    intro hi
    have e : knotSum t p (i + 1) = knotSum t p i - t (i + 1) + t (p + 1 + i) := by
      obtain ⟨q, rfl⟩ : ∃ q, p = q + 1 := ⟨p - 1, by omega⟩
      have h1 := knotSum_succ t q (i + 1)
      have h2 := knotSum_pred t q (i + 1) (by omega)
      rw [Nat.add_sub_cancel] at h2
      rw [h1, h2, show i + 1 + q + 1 = q + 1 + 1 + i by omega]
      ring
    rw [e, ih (by omega), kl _ hi, ku _ (by omega)]
    cases isOpen
    · simp only [Bool.false_eq_true, if_false]; push_cast; ring
    · simp; ring

/-- The knots inside of the domain. -/
def midKnots (ne : Nat) (lu du : K) : List K := (List.range (ne - 1)).map fun (i : Nat) => lu + ((i : K) + 1) * du

/-- The spline that the script constructs. -/
theorem construct_spec (junk : Spline K → List K) {p ne : Nat} (hp : 0 < p) (hne : 0 < ne) {lx ux lu uu : K} (hx : lx ≠ ux) (hu : lu < uu)
    (isOpen : Bool) : ∃ s, construct junk p ne lx ux lu uu isOpen = some s ∧ s.k = p ∧
      s.t = lowKnots p lu ((uu - lu) / ne) isOpen ++ midKnots ne lu ((uu - lu) / ne) ++ upKnots p uu ((uu - lu) / ne) isOpen ∧
      s.c.length = ne + p ∧ ∀ i < ne + p, s.c.getD i 0 = lx - (ux - lx) / (uu - lu) * lu + (ux - lx) / (uu - lu) * (knotSum (knots s.t) p i / p) := by
  have hp' : (p : K) ≠ 0 := Nat.cast_ne_zero.2 (by omega)
  have hne' : (ne : K) ≠ 0 := Nat.cast_ne_zero.2 (by omega)
  have hpos : 0 < (ne : K) := Nat.cast_pos.2 hne
  have hu' : uu - lu ≠ 0 := sub_ne_zero.2 hu.ne'
  have hx' : ux - lx ≠ 0 := sub_ne_zero.2 hx.symm
  set du := (uu - lu) / ne with hdu
  have hdu0 : 0 < du := div_pos (sub_pos.2 hu) hpos
  have hdx0 : (ux - lx) / p ≠ 0 := div_ne_zero hx' hp'
  have E := ends_ok p lu uu du isOpen hdu0.le
  have a1 : arange lx (ux + 1 / 2 * ((ux - lx) / p)) ((ux - lx) / p) =
      some ((List.range (p + 1)).map fun (i : Nat) => lx + (i : K) * ((ux - lx) / p)) := by
    refine arange_eq hdx0 ?_
    push_cast
    field_simp
    ring
  have a2 : arange (lu + du) (uu - 1 / 2 * du) du = some (midKnots ne lu du) := by
    rw [arange_eq (n := ne - 1) hdu0.ne']
    · unfold midKnots
      congr 1
      refine List.map_congr_left fun i _ => ?_
      ring
    · rw [Nat.cast_sub (by omega), hdu]
      push_cast
      field_simp
      ring
  set cps := correct p ne ((ux + lx) / 2) isOpen ((List.range (p + 1)).map fun (i : Nat) => lx + (i : K) * ((ux - lx) / p)) with hcps
  have hlen : cps.length = p + 1 := by rw [hcps]; unfold correct; cases isOpen <;> simp
  have h0 : mkSpline (endKnots p lu uu du isOpen) cps p = some ⟨lowKnots p lu du isOpen ++ [] ++ upKnots p uu du isOpen, cps, p⟩ := by
    rw [endKnots_eq]
    exact mkSpline_ok E List.Pairwise.nil (fun y hy => absurd hy (List.not_mem_nil)) hu (by rw [hlen]; simp)
  have F0 : Fine (lowKnots p lu du isOpen) [] (upKnots p uu du isOpen) p (lx - (ux - lx) / (uu - lu) * lu) ((ux - lx) / (uu - lu))
      ⟨lowKnots p lu du isOpen ++ [] ++ upKnots p uu du isOpen, cps, p⟩ := by
    refine ⟨rfl, rfl, by simp [hlen], fun i hi => ?_⟩
    dsimp only
    simp only [List.length_nil, add_zero] at hi
    rw [knotSum_ends p hp lu uu du isOpen i (by omega), List.getD_eq_getElem _ _ (by omega)]
    simp only [hcps, correct]
    cases isOpen
    · simp only [Bool.false_eq_true, if_false, List.getElem_map, List.getElem_range]
      rw [hdu]
      field_simp
      ring
    · simp only [if_true, List.getElem_map, List.getElem_range]
      field_simp
      ring
  have hmid : ∀ y ∈ ([] : List K) ++ midKnots ne lu du, lu ≤ y ∧ y < uu := by
    intro y hy
    rw [List.nil_append] at hy
    obtain ⟨i, hi, rfl⟩ := List.mem_map.1 hy
    rw [List.mem_range] at hi
    have h1 : (0 : K) ≤ i := Nat.cast_nonneg _
    have h2 : (i : K) + 1 < ne := by exact_mod_cast (by omega : i + 1 < ne)
    constructor
    · have : 0 ≤ ((i : K) + 1) * du := mul_nonneg (by linarith) hdu0.le
      linarith
    · have e : (ne : K) * du = uu - lu := by rw [hdu]; field_simp
      have : ((i : K) + 1) * du < ne * du := mul_lt_mul_of_pos_right h2 hdu0
      linarith
  have hsorted : (([] : List K) ++ midKnots ne lu du).Pairwise (· ≤ ·) := by
    rw [List.nil_append, List.pairwise_iff_getElem]
    intro i j hi hj hij
    simp only [midKnots, List.getElem_map, List.getElem_range]
    have : ((i : K) + 1) * du ≤ ((j : K) + 1) * du :=
      mul_le_mul_of_nonneg_right (by have : (i : K) ≤ j := Nat.cast_le.2 hij.le; linarith) hdu0.le
    linarith
  obtain ⟨s, hs, F⟩ := inserts_fine E hp hu junk _ [] _ hsorted hmid F0
  rw [List.nil_append] at F
  obtain ⟨ht, hk, hc, hco⟩ := F
  have hml : (midKnots ne lu du).length = ne - 1 := by simp [midKnots]
  have htl : s.t.length - p - 1 = ne + p := by
    rw [ht, List.length_append, List.length_append, E.lenLow, E.lenUp, hml]; omega
  rw [hml] at hc hco
  refine ⟨{ s with c := s.c.take (s.t.length - p - 1) }, ?_, hk, ht, ?_, ?_⟩
  · unfold construct
    rw [if_neg (by omega)]
    dsimp only
    rw [if_neg (by omega), ← hdu, a1, Option.bind_some, ← hcps, h0, Option.bind_some, a2, Option.bind_some, hs, Option.map_some]
  · dsimp only
    rw [htl, List.length_take]; omega
  · intro i hi
    dsimp only
    rw [htl, ← hco i (by omega), List.getD_eq_getElem?_getD, List.getElem?_take_of_lt hi, List.getD_eq_getElem?_getD]

end QuESo.BSpline
