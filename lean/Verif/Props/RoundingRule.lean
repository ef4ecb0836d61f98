import Verif.Model.RoundingRule
import Verif.Proofs.Rounding
import Verif.Props.Rules

/-!
# C112: the integration points of full cells in floating-point arithmetic
-/
namespace QuESo.Props
open QuESo.Spec QuESo.Round QuESo.Rules QuESo.Mapping

section
variable {rnd : ℚ → ℚ} {eps : ℚ} {big : Nat}

/-- `a` is `b ≥ 0` up to `k` rounding errors. -/
def Near (eps : ℚ) (k : Nat) (a b : ℚ) : Prop := 0 ≤ b ∧ b * (1 - eps) ^ k ≤ a ∧ a ≤ b * (1 + eps) ^ k

theorem Near.refl {b : ℚ} (h : 0 ≤ b) : Near eps 0 b b := ⟨h, by simp, by simp⟩

theorem eps_nonneg (hr : IsRounding rnd eps big) : 0 ≤ eps := by
  have := hr.error 1
  rw [abs_one, mul_one] at this
  exact (abs_nonneg _).trans this

theorem Near.round (hr : IsRounding rnd eps big) (he : eps ≤ 1) {k : Nat} {a b : ℚ} (h : Near eps k a b) : Near eps (k + 1) (rnd a) b := by
  obtain ⟨h0, h1, h2⟩ := h
  have e0 := eps_nonneg hr
  have ha : 0 ≤ a := le_trans (mul_nonneg h0 (pow_nonneg (by linarith) _)) h1
  have e := hr.error a
  rw [abs_of_nonneg ha, abs_le] at e
  refine ⟨h0, ?_, ?_⟩
  · have := mul_le_mul_of_nonneg_right h1 (show 0 ≤ 1 - eps by linarith)
    rw [pow_succ, ← mul_assoc]; linarith [e.1]
  · have := mul_le_mul_of_nonneg_right h2 (show 0 ≤ 1 + eps by linarith)
    rw [pow_succ, ← mul_assoc]; linarith [e.2]

theorem Near.mul (e0 : 0 ≤ eps) (he : eps ≤ 1) {k l : Nat} {a b c d : ℚ} (h : Near eps k a b) (h' : Near eps l c d) : Near eps (k + l) (a * c) (b * d) := by
  obtain ⟨h0, h1, h2⟩ := h
  obtain ⟨g0, g1, g2⟩ := h'
  have z1 : 0 ≤ b * (1 - eps) ^ k := mul_nonneg h0 (pow_nonneg (by linarith) _)
  have z2 : 0 ≤ d * (1 - eps) ^ l := mul_nonneg g0 (pow_nonneg (by linarith) _)
  refine ⟨mul_nonneg h0 g0, ?_, ?_⟩
  · have := mul_le_mul h1 g1 z2 (z1.trans h1)
    rw [pow_add]; linarith
  · have := mul_le_mul h2 g2 (z2.trans g1) ((z1.trans h1).trans h2)
    rw [pow_add]; linarith

theorem lenR_near (hr : IsRounding rnd eps big) (he : eps ≤ 1) {lo up : ℚ} (h : lo ≤ up) : Near eps 1 (lenR rnd lo up) (up - lo) := by
  have h0 : rnd 0 = 0 := by simpa using hr.whole 0 (Nat.zero_le _)
  have := hr.mono 0 (up - lo) (by linarith)
  rw [h0] at this
  unfold lenR
  rw [abs_of_nonneg this]
  exact (Near.refl (by linarith)).round hr he

theorem weightR_near (hr : IsRounding rnd eps big) (he : eps ≤ 1) {b : Box ℚ} (hb : OrderedBox b) {u v w : ℚ} (hu : 0 ≤ u) (hv : 0 ≤ v) (hw : 0 ≤ w) :
    Near eps 11 (weightR rnd ⟨lenR rnd b.lower.x b.upper.x, lenR rnd b.lower.y b.upper.y, lenR rnd b.lower.z b.upper.z⟩ (rnd u) (rnd v) (rnd w))
      (u * (b.upper.x - b.lower.x) * v * (b.upper.y - b.lower.y) * w * (b.upper.z - b.lower.z)) := by
  have e0 := eps_nonneg hr
  obtain ⟨h1, h2, h3⟩ := hb
  have t : ∀ {x : ℚ}, 0 ≤ x → Near eps 1 (rnd x) x := fun h => (Near.refl h).round hr he
  exact ((((((((((t hu).mul e0 he (lenR_near hr he h1)).round hr he).mul e0 he (t hv)).round hr he).mul e0 he (lenR_near hr he h2)).round hr he).mul e0 he (t hw)).round hr he).mul e0 he
    (lenR_near hr he h3)).round hr he

theorem near_abs (e0 : 0 ≤ eps) (he : eps ≤ 1 / 1000) {a b : ℚ} (h : Near eps 11 a b) : |a - b| ≤ 12 * eps * b := by
  obtain ⟨h0, h1, h2⟩ := h
  have p1 : (1 + eps) ^ 11 ≤ 1 + 12 * eps := by
    have h2' : (1 + eps) ^ 2 ≤ 1 + 2001 / 1000 * eps := by nlinarith
    have h4 : (1 + eps) ^ 4 ≤ 1 + 401 / 100 * eps := by
      have : (1 + eps) ^ 4 = (1 + eps) ^ 2 * (1 + eps) ^ 2 := by ring
      have q := mul_le_mul h2' h2' (by positivity) (by positivity)
      rw [this]; nlinarith
    have h8 : (1 + eps) ^ 8 ≤ 1 + 804 / 100 * eps := by
      have : (1 + eps) ^ 8 = (1 + eps) ^ 4 * (1 + eps) ^ 4 := by ring
      have q := mul_le_mul h4 h4 (by positivity) (by positivity)
      rw [this]; nlinarith
    have h10 : (1 + eps) ^ 10 ≤ 1 + 1007 / 100 * eps := by
      have : (1 + eps) ^ 10 = (1 + eps) ^ 8 * (1 + eps) ^ 2 := by ring
      have q := mul_le_mul h8 h2' (by positivity) (by positivity)
      rw [this]; nlinarith
    have : (1 + eps) ^ 11 = (1 + eps) ^ 10 * (1 + eps) := by ring
    have q := mul_le_mul_of_nonneg_right h10 (show 0 ≤ 1 + eps by linarith)
    rw [this]; nlinarith
  have p2 : 1 - 12 * eps ≤ (1 - eps) ^ 11 := by
    have := one_add_mul_le_pow (a := -eps) (by linarith) 11
    have e : (1 + -eps) = 1 - eps := by ring
    rw [e] at this
    push_cast at this
    linarith
  have q1 := mul_le_mul_of_nonneg_left p1 h0
  have q2 := mul_le_mul_of_nonneg_left p2 h0
  rw [abs_le]
  constructor <;> nlinarith

theorem near_pos (he : eps < 1) {k : Nat} {a b : ℚ} (hb : 0 < b) (h : Near eps k a b) : 0 < a :=
  lt_of_lt_of_le (mul_pos hb (pow_pos (by linarith) _)) h.2.1

theorem pow3_le (e0 : 0 ≤ eps) (he : eps ≤ 1 / 1000) : (1 + eps) ^ 3 ≤ 1 + 31 / 10 * eps := by
  have : (1 + eps) ^ 3 = 1 + 3 * eps + eps * eps * (3 + eps) := by ring
  have h2 : eps * eps ≤ 1 / 1000 * eps := mul_le_mul_of_nonneg_right he e0
  have : eps * eps * (3 + eps) ≤ 1 / 1000 * eps * (3 + eps) := mul_le_mul_of_nonneg_right h2 (by linarith)
  nlinarith

/-- The product of length and table value, rounded once or twice more. -/
theorem prod_near (hr : IsRounding rnd eps big) (he : eps ≤ 1 / 1000) {lo up x : ℚ} (h : lo ≤ up) (hx : 0 ≤ x) (fused : Bool) :
    ∃ P, posR rnd fused lo (lenR rnd lo up) (rnd x) = rnd (lo + P) ∧ Near eps 3 P ((up - lo) * x) := by
  have e0 := eps_nonneg hr
  have he1 : eps ≤ 1 := by linarith
  have h2 : Near eps 2 (lenR rnd lo up * rnd x) ((up - lo) * x) := (lenR_near hr he1 h).mul e0 he1 ((Near.refl hx).round hr he1)
  cases fused with
  | false => exact ⟨rnd (lenR rnd lo up * rnd x), by simp [posR], h2.round hr he1⟩
  | true =>
    refine ⟨_, by simp [posR]; rfl, h2.1, ?_, ?_⟩
    · refine le_trans ?_ h2.2.1
      refine mul_le_mul_of_nonneg_left ?_ h2.1
      exact pow_le_pow_of_le_one (by linarith) (by linarith) (by norm_num)
    · refine h2.2.2.trans (mul_le_mul_of_nonneg_left ?_ h2.1)
      exact pow_le_pow_right₀ (by linarith) (by norm_num)

theorem posR_inside (hr : IsRounding rnd eps big) (he : eps ≤ 1 / 1000) {lo up x : ℚ} (h : lo ≤ up) (hlo : rnd lo = lo) (hup : rnd up = up) (hx : 0 ≤ x) (hx1 : x ≤ 99 / 100) (fused : Bool) :
    lo ≤ posR rnd fused lo (lenR rnd lo up) (rnd x) ∧ posR rnd fused lo (lenR rnd lo up) (rnd x) ≤ up := by
  obtain ⟨P, hP, n0, n1, n2⟩ := prod_near hr he h hx fused
  have e0 := eps_nonneg hr
  rw [hP]
  constructor
  · have hP0 : 0 ≤ P := le_trans (mul_nonneg n0 (pow_nonneg (by linarith) _)) n1
    have := hr.mono lo (lo + P) (by linarith)
    rwa [hlo] at this
  · have p3 := pow3_le e0 he
    have hA : 0 ≤ up - lo := by linarith
    have : (up - lo) * x * (1 + eps) ^ 3 ≤ (up - lo) * 1 := by
      rw [mul_assoc]
      refine mul_le_mul_of_nonneg_left ?_ hA
      calc x * (1 + eps) ^ 3 ≤ 99 / 100 * (1 + 31 / 10 * eps) := mul_le_mul hx1 p3 (by positivity) (by norm_num)
        _ ≤ 1 := by linarith
    have := hr.mono (lo + P) up (by linarith)
    rwa [hup] at this

theorem posR_error (hr : IsRounding rnd eps big) (he : eps ≤ 1 / 1000) {lo up x : ℚ} (h : lo ≤ up) (hx : 0 ≤ x) (hx1 : x ≤ 1) (fused : Bool) :
    |posR rnd fused lo (lenR rnd lo up) (rnd x) - (lo + (up - lo) * x)| ≤ 5 * eps * (|lo| + |up|) := by
  obtain ⟨P, hP, n0, n1, n2⟩ := prod_near hr he h hx fused
  have e0 := eps_nonneg hr
  have hA : 0 ≤ up - lo := by linarith
  rw [hP]
  have hM : up - lo ≤ |lo| + |up| := by
    have := le_abs_self up
    have := neg_abs_le lo
    linarith
  have hX : (up - lo) * x ≤ up - lo := by simpa using mul_le_mul_of_nonneg_left hx1 hA
  have p3 := pow3_le e0 he
  have p3' : 1 - 3 * eps ≤ (1 - eps) ^ 3 := by
    have := one_add_mul_le_pow (a := -eps) (by linarith) 3
    have e : (1 + -eps) = 1 - eps := by ring
    rw [e] at this
    push_cast at this
    linarith
  have q1 := mul_le_mul_of_nonneg_left p3 n0
  have q2 := mul_le_mul_of_nonneg_left p3' n0
  set X := (up - lo) * x with hXdef
  set M := |lo| + |up| with hMdef
  have hM0 : 0 ≤ M := by positivity
  have hXM : eps * X ≤ eps * M := mul_le_mul_of_nonneg_left (hX.trans hM) e0
  have hPX : |P - X| ≤ 31 / 10 * (eps * M) := by
    have a1 : X * (1 + 31 / 10 * eps) = X + 31 / 10 * (eps * X) := by ring
    have a2 : X * (1 - 3 * eps) = X - 3 * (eps * X) := by ring
    have : 0 ≤ eps * X := mul_nonneg e0 n0
    rw [a1] at q1
    rw [a2] at q2
    rw [abs_le]
    constructor <;> linarith
  have hsum : |lo + X| ≤ M := by
    rw [abs_le]
    have := neg_abs_le lo
    have := le_abs_self up
    have := abs_nonneg lo
    have := abs_nonneg up
    constructor <;> linarith
  have e3 := hr.error (lo + P)
  have habs : |lo + P| ≤ M + |P - X| := by
    have : lo + P = (lo + X) + (P - X) := by ring
    rw [this]
    exact (abs_add_le _ _).trans (by linarith)
  have h7 : eps * |lo + P| ≤ eps * (M + |P - X|) := mul_le_mul_of_nonneg_left habs e0
  have h8 : eps * |P - X| ≤ 1 / 1000 * |P - X| := mul_le_mul_of_nonneg_right he (abs_nonneg _)
  have : rnd (lo + P) - (lo + X) = (rnd (lo + P) - (lo + P)) + (P - X) := by ring
  rw [this]
  refine (abs_add_le _ _).trans ?_
  have hem : 0 ≤ eps * M := mul_nonneg e0 hM0
  rw [mul_add] at h7
  rw [mul_assoc]
  linarith

/-- All positions of the Gauss tables are below 0.99. -/
theorem gauss_below {order : ℕ} {method : Method} {rule : Rule} (h : getGauss order method = .ok rule) : ∀ q ∈ rule, 0 < q.1 ∧ q.1 ≤ 99 / 100 ∧ 0 < q.2 := by
  have hall : ∀ row ∈ Tables.gaussLegendre, ∀ q ∈ ofTable gaussScale row, 0 < q.1 ∧ q.1 ≤ 99 / 100 ∧ 0 < q.2 := by decide +kernel
  have key : ∀ i k, (entry Tables.gaussLegendre i k).map (ofTable gaussScale) = .ok rule → ∀ q ∈ rule, 0 < q.1 ∧ q.1 ≤ 99 / 100 ∧ 0 < q.2 := by
    intro i k he
    unfold entry at he
    split at he
    · exact absurd he (by simp [Except.map])
    · split at he
      · exact absurd he (by simp [Except.map])
      · rename_i row hrow
        have hmem := List.mem_of_getElem? hrow
        have e : ofTable gaussScale row = rule := by simpa [Except.map] using he
        rw [← e]
        exact hall row hmem
  cases method <;> first | exact key _ _ h | (simp [getGauss] at h)

theorem forall₂_map {α β γ : Type _} {R : β → γ → Prop} (l : List α) (f : α → β) (g : α → γ) (h : ∀ a ∈ l, R (f a) (g a)) : List.Forall₂ R (l.map f) (l.map g) := by
  induction l with
  | nil => exact .nil
  | cons a t ih => exact .cons (h a (by simp)) (ih fun b hb => h b (by simp [hb]))

theorem forall₂_flatMap {α β γ : Type _} {R : β → γ → Prop} (l : List α) (f : α → List β) (g : α → List γ) (h : ∀ a ∈ l, List.Forall₂ R (f a) (g a)) :
    List.Forall₂ R (l.flatMap f) (l.flatMap g) := by
  induction l with
  | nil => exact .nil
  | cons a t ih => exact List.rel_append (h a (by simp)) (ih fun b hb => h b (by simp [hb]))

/-- Property `P` of a point of the machine and the exact point, for all pairs of the two rules. -/
theorem elementRuleR_rel (R : VolPoint ℚ → VolPoint ℚ → Prop) {fused : Bool} {order : V3 ℕ} {method : Method} {b : Box ℚ} {pts : List (VolPoint ℚ)}
    (h : elementRule order method b = .ok pts)
    (hR : ∀ u v w : ℚ × ℚ, (0 < u.1 ∧ u.1 ≤ 99 / 100 ∧ 0 < u.2) → (0 < v.1 ∧ v.1 ≤ 99 / 100 ∧ 0 < v.2) → (0 < w.1 ∧ w.1 ≤ 99 / 100 ∧ 0 < w.2) →
      R (tensorPointR rnd fused b.lower ⟨lenR rnd b.lower.x b.upper.x, lenR rnd b.lower.y b.upper.y, lenR rnd b.lower.z b.upper.z⟩ (rnd u.1, rnd u.2) (rnd v.1, rnd v.2) (rnd w.1, rnd w.2))
        (Quad.tensorPoint b.lower ⟨|b.upper.x - b.lower.x|, |b.upper.y - b.lower.y|, |b.upper.z - b.lower.z|⟩ u v w)) :
    ∃ ptsR, elementRuleR rnd fused order method b = .ok ptsR ∧ List.Forall₂ R ptsR pts := by
  unfold elementRule at h
  unfold elementRuleR
  cases hu : getGauss order.x method with
  | error e => simp [hu] at h
  | ok ru =>
    cases hv : getGauss order.y method with
    | error e => simp [hu, hv] at h
    | ok rv =>
      cases hw : getGauss order.z method with
      | error e => simp [hu, hv, hw] at h
      | ok rw =>
        simp only [hu, hv, hw, Except.ok.injEq] at h ⊢
        refine ⟨_, rfl, ?_⟩
        subst h
        unfold assembleIPsR Quad.assembleIPs literals
        simp only [List.flatMap_map, List.map_map]
        refine forall₂_flatMap _ _ _ fun u hu' => ?_
        refine forall₂_flatMap _ _ _ fun v hv' => ?_
        refine forall₂_map _ _ _ fun w hw' => ?_
        exact hR u v w (gauss_below hu u hu') (gauss_below hv v hv') (gauss_below hw w hw')

/-- **C112** (accuracy).  For every machine arithmetic with relative error at most `eps ≤ 1/1000`, every Gauss rule and every cell: the machine computes as many points as exact arithmetic, in the
same order; every coordinate is within `5 eps (|lower| + |upper|)` of the exact one, and every weight is within `12 eps` times itself of the exact one. -/
theorem C112_close (hr : IsRounding rnd eps big) (he : eps ≤ 1 / 1000) (fused : Bool) {order : V3 ℕ} {method : Method} {b : Box ℚ} (hb : OrderedBox b) {pts : List (VolPoint ℚ)}
    (h : elementRule order method b = .ok pts) :
    ∃ ptsR, elementRuleR rnd fused order method b = .ok ptsR ∧ List.Forall₂ (fun q e => |q.pos.x - e.pos.x| ≤ 5 * eps * (|b.lower.x| + |b.upper.x|) ∧
      |q.pos.y - e.pos.y| ≤ 5 * eps * (|b.lower.y| + |b.upper.y|) ∧ |q.pos.z - e.pos.z| ≤ 5 * eps * (|b.lower.z| + |b.upper.z|) ∧ |q.weight - e.weight| ≤ 12 * eps * e.weight) ptsR pts := by
  have e0 := eps_nonneg hr
  have hb' := hb
  obtain ⟨h1, h2, h3⟩ := hb'
  refine elementRuleR_rel _ h fun u v w hu hv hw => ?_
  simp only [tensorPointR, Quad.tensorPoint]
  rw [abs_of_nonneg (sub_nonneg.mpr h1), abs_of_nonneg (sub_nonneg.mpr h2), abs_of_nonneg (sub_nonneg.mpr h3)]
  refine ⟨posR_error hr he h1 hu.1.le (by linarith [hu.2.1]) fused, posR_error hr he h2 hv.1.le (by linarith [hv.2.1]) fused, posR_error hr he h3 hw.1.le (by linarith [hw.2.1]) fused, ?_⟩
  exact near_abs e0 he (weightR_near hr (by linarith) hb hu.2.2.le hv.2.2.le hw.2.2.le)

/-- **C112** (inside, positive).  For every such arithmetic and every cell whose corners are numbers of the machine: all computed points lie in the cell, however small it is, and if the cell has a
positive size the computed weights are positive. -/
theorem C112_inside (hr : IsRounding rnd eps big) (he : eps ≤ 1 / 1000) {fused : Bool} {order : V3 ℕ} {method : Method} {b : Box ℚ} (hb : OrderedBox b)
    (hl : rnd b.lower.x = b.lower.x ∧ rnd b.lower.y = b.lower.y ∧ rnd b.lower.z = b.lower.z) (hu : rnd b.upper.x = b.upper.x ∧ rnd b.upper.y = b.upper.y ∧ rnd b.upper.z = b.upper.z)
    {ptsR : List (VolPoint ℚ)} (h : elementRuleR rnd fused order method b = .ok ptsR) : ∀ q ∈ ptsR, InBox b q.pos ∧ (ProperBox b → 0 < q.weight) := by
  have hb' := hb
  obtain ⟨h1, h2, h3⟩ := hb'
  have hex : ∃ pts, elementRule order method b = .ok pts := by
    unfold elementRuleR at h
    unfold elementRule
    cases hu : getGauss order.x method <;> cases hv : getGauss order.y method <;> cases hw : getGauss order.z method <;> simp_all
  obtain ⟨pts, hp⟩ := hex
  obtain ⟨ptsR', h', hrel⟩ := elementRuleR_rel (rnd := rnd) (fused := fused) (fun q _ => InBox b q.pos ∧ (ProperBox b → 0 < q.weight)) hp (fun u v w ku kv kw => by
    refine ⟨⟨posR_inside hr he h1 hl.1 hu.1 ku.1.le ku.2.1 fused, posR_inside hr he h2 hl.2.1 hu.2.1 kv.1.le kv.2.1 fused, posR_inside hr he h3 hl.2.2 hu.2.2 kw.1.le kw.2.1 fused⟩, ?_⟩
    rintro ⟨s1, s2, s3⟩
    refine near_pos (by linarith) ?_ (weightR_near hr (by linarith) hb ku.2.2.le kv.2.2.le kw.2.2.le)
    have := sub_pos.mpr s1
    have := sub_pos.mpr s2
    have := sub_pos.mpr s3
    have := ku.2.2
    have := kv.2.2
    have := kw.2.2
    positivity)
  rw [h] at h'
  cases h'
  intro q hq
  clear h hp
  induction hrel with
  | nil => simp at hq
  | cons hd _ ih =>
    rcases List.mem_cons.mp hq with rfl | hq
    · exact hd
    · exact ih hq

/-- **C112** (volume).  For every such arithmetic: the computed weights of a cell add up (exactly) to its volume, up to the relative error `12 eps + 5 / 10 ^ 12`. -/
theorem C112_volume (hr : IsRounding rnd eps big) (he : eps ≤ 1 / 1000) {fused : Bool} {method : Method} (hm : isGGQ method = false) {order : V3 ℕ}
    (hx : reduction method ≤ order.x ∧ order.x < 10 + reduction method) (hy : reduction method ≤ order.y ∧ order.y < 10 + reduction method)
    (hz : reduction method ≤ order.z ∧ order.z < 10 + reduction method) {b : Box ℚ} (hb : OrderedBox b) :
    ∃ ptsR, elementRuleR rnd fused order method b = .ok ptsR ∧
      |(ptsR.map (·.weight)).sum - boxVolume b| ≤ (12 * eps + 5 / 10 ^ 12) * boxVolume b := by
  have e0 := eps_nonneg hr
  obtain ⟨pts, hp, hlen, hint⟩ := C67_element hm hx hy hz hb
  obtain ⟨ptsR, hpR, hrel⟩ := C112_close hr he fused hb hp
  refine ⟨ptsR, hpR, ?_⟩
  have hc : ∀ d : ℕ, IsPoly d (fun _ : ℝ => (1 : ℝ)) := fun d => ⟨1, by simp, fun x => by simp⟩
  have h1 := hint (fun _ _ _ => 1) 1 ⟨fun _ _ => hc _, fun _ _ => hc _, fun _ _ => hc _, by fun_prop⟩ (by intros; simp)
  simp only [intervalIntegral.integral_const, smul_eq_mul, mul_one, pointSum] at h1
  have hsum : ((pts.map fun q => (q.weight : ℝ)).sum) = (((pts.map (·.weight)).sum : ℚ) : ℝ) := by
    clear hp hrel hint h1 hlen
    induction pts with
    | nil => simp
    | cons a t ih => simp [ih]
  rw [hsum] at h1
  have hV : boxVolume b = (b.upper.x - b.lower.x) * (b.upper.y - b.lower.y) * (b.upper.z - b.lower.z) := rfl
  have h2 : |(pts.map (·.weight)).sum - boxVolume b| ≤ 4 / 10 ^ 12 * boxVolume b := by
    rw [hV]
    have e : ((b.upper.x : ℝ) - b.lower.x) * (((b.upper.y : ℝ) - b.lower.y) * ((b.upper.z : ℝ) - b.lower.z)) = ((b.upper.x : ℝ) - b.lower.x) * ((b.upper.y : ℝ) - b.lower.y) * ((b.upper.z : ℝ) - b.lower.z) := by ring
    rw [e] at h1
    have h1' : ((|(pts.map (·.weight)).sum - (b.upper.x - b.lower.x) * (b.upper.y - b.lower.y) * (b.upper.z - b.lower.z)| : ℚ) : ℝ) ≤
        ((4 / 10 ^ 12 * ((b.upper.x - b.lower.x) * (b.upper.y - b.lower.y) * (b.upper.z - b.lower.z)) : ℚ) : ℝ) := by
      push_cast
      push_cast at h1
      exact h1
    exact Rat.cast_le.mp h1'
  have h3 : |(ptsR.map (·.weight)).sum - (pts.map (·.weight)).sum| ≤ 12 * eps * (pts.map (·.weight)).sum := by
    clear hp hpR hint h1 hsum h2 hlen
    induction hrel with
    | nil => simp
    | @cons q e l1 l2 hd _ ih =>
      simp only [List.map_cons, List.sum_cons]
      have : q.weight + (l1.map (·.weight)).sum - (e.weight + (l2.map (·.weight)).sum) = (q.weight - e.weight) + ((l1.map (·.weight)).sum - (l2.map (·.weight)).sum) := by ring
      rw [this]
      refine (abs_add_le _ _).trans ?_
      rw [mul_add]
      exact add_le_add hd.2.2.2 ih
  obtain ⟨b1, b2, b3⟩ := hb
  have hV0 : 0 ≤ boxVolume b := by
    rw [hV]
    exact mul_nonneg (mul_nonneg (by linarith) (by linarith)) (by linarith)
  set S := (pts.map (·.weight)).sum
  set SR := (ptsR.map (·.weight)).sum
  set V := boxVolume b
  have hS : S ≤ (1 + 4 / 10 ^ 12) * V := by linarith [(abs_le.mp h2).2]
  have h4 : 12 * eps * S ≤ 12 * eps * ((1 + 4 / 10 ^ 12) * V) := mul_le_mul_of_nonneg_left hS (by linarith)
  have h5 : eps * V ≤ 1 / 1000 * V := mul_le_mul_of_nonneg_right he hV0
  have : SR - V = (SR - S) + (S - V) := by ring
  rw [this]
  refine (abs_add_le _ _).trans ?_
  have e1 : 12 * eps * ((1 + 4 / 10 ^ 12) * V) = 12 * (eps * V) + 48 / 10 ^ 12 * (eps * V) := by ring
  have e2 : (12 * eps + 5 / 10 ^ 12) * V = 12 * (eps * V) + 5 / 10 ^ 12 * V := by ring
  rw [e1] at h4
  rw [e2]
  have : 48 / 10 ^ 12 * (eps * V) ≤ 48 / 10 ^ 12 * (1 / 1000 * V) := mul_le_mul_of_nonneg_left h5 (by norm_num)
  linarith

end

/-- **C112** in double precision: all of this holds, with errors of a few units in the last place. -/
theorem C112_binary64 (fused : Bool) {method : Method} (hm : isGGQ method = false) {order : V3 ℕ} (hx : reduction method ≤ order.x ∧ order.x < 10 + reduction method)
    (hy : reduction method ≤ order.y ∧ order.y < 10 + reduction method) (hz : reduction method ≤ order.z ∧ order.z < 10 + reduction method) {b : Box ℚ} (hb : ProperBox b)
    (hl : binary64 b.lower.x = b.lower.x ∧ binary64 b.lower.y = b.lower.y ∧ binary64 b.lower.z = b.lower.z)
    (hu : binary64 b.upper.x = b.upper.x ∧ binary64 b.upper.y = b.upper.y ∧ binary64 b.upper.z = b.upper.z) :
    ∃ pts, elementRuleR binary64 fused order method b = .ok pts ∧ (∀ q ∈ pts, InBox b q.pos ∧ 0 < q.weight) ∧ |(pts.map (·.weight)).sum - boxVolume b| ≤ 6 / 10 ^ 12 * boxVolume b := by
  have ho : OrderedBox b := ⟨hb.1.le, hb.2.1.le, hb.2.2.le⟩
  obtain ⟨pts, h1, h2⟩ := C112_volume binary64_isRounding (by norm_num) (fused := fused) hm hx hy hz ho
  refine ⟨pts, h1, fun q hq => ?_, h2.trans ?_⟩
  · obtain ⟨a, c⟩ := C112_inside binary64_isRounding (by norm_num) ho hl hu h1 q hq
    exact ⟨a, c hb⟩
  · refine mul_le_mul_of_nonneg_right (by norm_num) ?_
    obtain ⟨b1, b2, b3⟩ := hb
    exact mul_nonneg (mul_nonneg (by linarith) (by linarith)) (by linarith)

/-- A cell and a rule that meet the hypotheses: from (0, 1, 2) to (1/2, 3, 5/2), two points in each direction. -/
example : ∃ pts, elementRuleR binary64 false ⟨1, 1, 1⟩ .gauss ⟨⟨0, 1, 2⟩, ⟨1 / 2, 3, 5 / 2⟩⟩ = .ok pts ∧ (∀ q ∈ pts, InBox ⟨⟨0, 1, 2⟩, ⟨1 / 2, 3, 5 / 2⟩⟩ q.pos ∧ 0 < q.weight) := by
  obtain ⟨pts, h1, h2, _⟩ := C112_binary64 false (method := .gauss) rfl (order := ⟨1, 1, 1⟩) (by decide) (by decide) (by decide) (b := ⟨⟨0, 1, 2⟩, ⟨1 / 2, 3, 5 / 2⟩⟩) (by norm_num [ProperBox])
    (by decide +kernel) (by decide +kernel)
  exact ⟨pts, h1, h2⟩

end QuESo.Props
