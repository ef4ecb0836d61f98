import Verif.Model.Clipper
import Verif.Spec.Clip
import Verif.Proofs.Cyclic
import Mathlib.Algebra.Order.Field.Basic
import Mathlib.Tactic.FieldSimp
import Mathlib.Tactic.Ring
import Mathlib.Tactic.Linarith
import Mathlib.Tactic.Positivity

/-!
# Proofs about clipping
-/
namespace QuESo.Clip
open QuESo.Cyc QuESo.Spec
variable {K : Type _} [Field K] [LinearOrder K] [IsStrictOrderedRing K]

/-- The point between `a` and `b`. -/
def lerp (a b : V3 K) (t : K) : V3 K := ⟨a.x + t * (b.x - a.x), a.y + t * (b.y - a.y), a.z + t * (b.z - a.z)⟩

/-- The signed distance to the plane. -/
def dist (pl : Plane K) (p : V3 K) : K :=
  if pl.index % 2 = 0 then pl.position - p.get (pl.index / 2) else p.get (pl.index / 2) - pl.position

omit [LinearOrder K] [IsStrictOrderedRing K] in
theorem get_lerp (a b : V3 K) (t : K) (i : Nat) : (lerp a b t).get i = a.get i + t * (b.get i - a.get i) := by
  match i with
  | 0 => rfl
  | 1 => rfl
  | _ + 2 => rfl

omit [LinearOrder K] [IsStrictOrderedRing K] in
theorem dist_lerp (pl : Plane K) (a b : V3 K) (t : K) :
    dist pl (lerp a b t) = dist pl a + t * (dist pl b - dist pl a) := by
  unfold dist; rw [get_lerp]; split <;> ring

theorem classify_front {p : V3 K} {pl : Plane K} {e : K} : classify p pl e = .front ↔ e < dist pl p := by
  unfold classify dist
  simp only
  split_ifs <;> simp_all

theorem classify_behind {p : V3 K} {pl : Plane K} {e : K} (he : 0 ≤ e) :
    classify p pl e = .behind ↔ dist pl p < -e := by
  unfold classify
  simp only [gt_iff_lt]
  change (if e < dist pl p then Side.front else if dist pl p < -e then Side.behind else Side.on) = _ ↔ _
  split_ifs with h1 h2
  · simp; linarith
  · simp [h2]
  · simpa using h2

theorem classify_on {p : V3 K} {pl : Plane K} {e : K} :
    classify p pl e = .on ↔ -e ≤ dist pl p ∧ dist pl p ≤ e := by
  unfold classify
  simp only [gt_iff_lt]
  change (if e < dist pl p then Side.front else if dist pl p < -e then Side.behind else Side.on) = _ ↔ _
  split_ifs with h1 h2
  · simp; intro; linarith
  · simp; intro; linarith
  · simp; exact ⟨by linarith, by linarith⟩

/-- The parameter of the intersection point. -/
def param (pl : Plane K) (a b : V3 K) : K := dist pl a / (dist pl a - dist pl b)

/-- The two points are strictly on different sides. -/
def Opposite (pl : Plane K) (a b : V3 K) : Prop := (0 < dist pl a ∧ dist pl b < 0) ∨ (dist pl a < 0 ∧ 0 < dist pl b)

theorem param_mem {pl : Plane K} {a b : V3 K} (h : Opposite pl a b) : 0 ≤ param pl a b ∧ param pl a b ≤ 1 := by
  unfold param
  rcases h with ⟨h1, h2⟩ | ⟨h1, h2⟩
  · have : 0 < dist pl a - dist pl b := by linarith
    exact ⟨div_nonneg h1.le this.le, (div_le_one this).2 (by linarith)⟩
  · have : dist pl a - dist pl b < 0 := by linarith
    exact ⟨div_nonneg_of_nonpos h1.le this.le, (div_le_one_of_neg this).2 (by linarith)⟩

theorem dist_cut {pl : Plane K} {a b : V3 K} (h : Opposite pl a b) : dist pl (lerp a b (param pl a b)) = 0 := by
  rw [dist_lerp]
  unfold param
  have : dist pl a - dist pl b ≠ 0 := by rcases h with ⟨h1, h2⟩ | ⟨h1, h2⟩ <;> linarith [ne_of_gt (show (0:K) < 1 by simp)] <;> (intro h0; linarith)
  field_simp
  ring

theorem intersection_eq {zt : K} (hz : 0 ≤ zt) {pl : Plane K} {a b : V3 K} (h : Opposite pl a b) :
    intersection zt a b pl = some (lerp a b (param pl a b)) := by
  have ht : (pl.position - a.get (pl.index / 2)) / (b.get (pl.index / 2) - a.get (pl.index / 2)) = param pl a b := by
    unfold param dist
    split
    · congr 1; ring
    · rw [← neg_div_neg_eq]; congr 1 <;> ring
  have hr := param_mem h
  unfold intersection
  simp only [ht]
  rw [if_pos hr]
  change (if classify (lerp a b (param pl a b)) pl zt ≠ Side.on then _ else some (lerp a b (param pl a b))) = _
  rw [if_neg]
  rw [not_not, classify_on, dist_cut h]
  exact ⟨by linarith, hz⟩

/-- The vertex created on an edge. -/
def mid (pl : Plane K) (a b : Vtx K) : Vtx K :=
  Vtx.set ⟨lerp a.pt b.pt (param pl a.pt b.pt), fun j => decide (j < pl.index) && (a.on j && b.on j)⟩ pl.index

theorem crossing_eq {zt : K} (hz : 0 ≤ zt) {pl : Plane K} {a b : Vtx K} (h : Opposite pl a.pt b.pt) :
    crossing zt a b pl = some (mid pl a b) := by
  unfold crossing
  rw [intersection_eq hz h]
  rfl

/-- The vertex lies behind the plane. -/
def behind (zt : K) (pl : Plane K) (v : Vtx K) : Bool := decide (dist pl v.pt < -(10 * zt))

/-- The vertex emitted when the polygon leaves the half-space. -/
def entry (zt : K) (pl : Plane K) (a b : Vtx K) : Vtx K :=
  if dist pl b.pt ≤ 10 * zt then b.set pl.index else mid pl a b

/-- The vertex emitted when the polygon enters the half-space. -/
def exit (zt : K) (pl : Plane K) (a b : Vtx K) : Vtx K :=
  if dist pl a.pt ≤ 10 * zt then a.set pl.index else mid pl a b

/-- The clipped polygon. -/
def cut (zt : K) (pl : Plane K) (l : List (Vtx K)) : List (Vtx K) :=
  clip (behind zt pl) (entry zt pl) (exit zt pl) l

theorem addVertex_some {p : List (Vtx K)} {v : Vtx K} (h : p.length + 1 ≤ 9) : addVertex p v = some (p ++ [v]) := by
  unfold addVertex capacity
  rw [if_neg (by omega)]

theorem clipLoop_eq {zt : K} (hz : 0 ≤ zt) (pl : Plane K) (a : Vtx K) (r cur : List (Vtx K))
    (h : cur.length + (emits (behind zt pl) (entry zt pl) (exit zt pl) a r).length ≤ 9) :
    clipLoop zt pl a r cur = some (cur ++ emits (behind zt pl) (entry zt pl) (exit zt pl) a r) := by
  induction r generalizing a cur with
  | nil => simp [clipLoop, emits]
  | cons b r ih =>
    have h10 : (0 : K) ≤ 10 * zt := by linarith
    simp only [emits, List.length_append] at h
    unfold clipLoop
    have e : clipStep zt pl a b cur =
        some (cur ++ edge (behind zt pl) (entry zt pl) (exit zt pl) a b) := by
      unfold clipStep
      cases hb : classify b.pt pl (10 * zt) <;> cases ha : classify a.pt pl (10 * zt) <;>
        (try rw [classify_front] at ha) <;> (try rw [classify_front] at hb) <;>
        (try rw [classify_behind h10] at ha) <;> (try rw [classify_behind h10] at hb) <;>
        (try rw [classify_on] at ha) <;> (try rw [classify_on] at hb)
      all_goals simp only
      · have hA : behind zt pl a = false := by simp [behind]; linarith
        have hB : behind zt pl b = false := by simp [behind]; linarith
        simp [edge, hA, hB]
      · have hA : behind zt pl a = true := by simp [behind]; linarith
        have hB : behind zt pl b = false := by simp [behind]; linarith
        have hx : entry zt pl a b = mid pl a b := by unfold entry; rw [if_neg (by linarith)]
        have e : edge (behind zt pl) (entry zt pl) (exit zt pl) a b = [mid pl a b] := by simp [edge, hA, hB, hx]
        rw [crossing_eq hz (Or.inr ⟨by linarith, by linarith⟩), e]
        rw [e] at h
        simp only [List.length_cons, List.length_nil] at h
        exact addVertex_some (by omega)
      · have hA : behind zt pl a = false := by simp [behind]; linarith [ha.1]
        have hB : behind zt pl b = false := by simp [behind]; linarith
        simp [edge, hA, hB]
      · have hA : behind zt pl a = false := by simp [behind]; linarith
        have hB : behind zt pl b = true := by simp [behind]; linarith
        have hx : exit zt pl a b = mid pl a b := by unfold exit; rw [if_neg (by linarith)]
        have e : edge (behind zt pl) (entry zt pl) (exit zt pl) a b = [mid pl a b, b] := by simp [edge, hA, hB, hx]
        rw [crossing_eq hz (Or.inl ⟨by linarith, by linarith⟩), e]
        rw [e] at h
        simp only [List.length_cons, List.length_nil] at h
        simp only [Option.bind_some]
        rw [addVertex_some (by omega), Option.bind_some, addVertex_some (by simp; omega)]
        simp
      · have hA : behind zt pl a = true := by simp [behind]; linarith
        have hB : behind zt pl b = true := by simp [behind]; linarith
        have e : edge (behind zt pl) (entry zt pl) (exit zt pl) a b = [b] := by simp [edge, hA, hB]
        rw [e]
        rw [e] at h
        simp only [List.length_cons, List.length_nil] at h
        exact addVertex_some (by omega)
      · have hA : behind zt pl a = false := by simp [behind]; linarith [ha.1]
        have hB : behind zt pl b = true := by simp [behind]; linarith
        have hx : exit zt pl a b = a.set pl.index := by unfold exit; rw [if_pos ha.2]
        have e : edge (behind zt pl) (entry zt pl) (exit zt pl) a b = [a.set pl.index, b] := by simp [edge, hA, hB, hx]
        rw [e]
        rw [e] at h
        simp only [List.length_cons, List.length_nil] at h
        rw [addVertex_some (by omega), Option.bind_some, addVertex_some (by simp; omega)]
        simp
      · have hA : behind zt pl a = false := by simp [behind]; linarith
        have hB : behind zt pl b = false := by simp [behind]; linarith [hb.1]
        simp [edge, hA, hB]
      · have hA : behind zt pl a = true := by simp [behind]; linarith
        have hB : behind zt pl b = false := by simp [behind]; linarith [hb.1]
        have hx : entry zt pl a b = b.set pl.index := by unfold entry; rw [if_pos hb.2]
        have e : edge (behind zt pl) (entry zt pl) (exit zt pl) a b = [b.set pl.index] := by simp [edge, hA, hB, hx]
        rw [e]
        rw [e] at h
        simp only [List.length_cons, List.length_nil] at h
        exact addVertex_some (by omega)
      · have hA : behind zt pl a = false := by simp [behind]; linarith [ha.1]
        have hB : behind zt pl b = false := by simp [behind]; linarith [hb.1]
        simp [edge, hA, hB]
    rw [e, Option.bind_some, ih _ _ (by rw [List.length_append]; omega)]
    simp [emits]

theorem clipPlane_eq {zt : K} (hz : 0 ≤ zt) (pl : Plane K) (l : List (Vtx K)) (h : (cut zt pl l).length ≤ 9) :
    clipPlane zt pl l = some (cut zt pl l) := by
  cases l with
  | nil => rfl
  | cons b l =>
    unfold clipPlane
    rw [getLast?_eq]
    simp only
    rw [clipLoop_eq hz]
    · rfl
    · simp only [List.length_nil, Nat.zero_add]; exact h

/-! ## Labels -/

/-- A label of points whose two classes are convex. -/
def ConvexLabel (f : V3 K → Bool) : Prop :=
  ∀ a b t, 0 ≤ t → t ≤ 1 → f a = f b → f (lerp a b t) = f a

theorem dd_between {p q r : Bool} (h : p = r → q = p) : dd p q + dd q r = dd p r := by
  cases p <;> cases q <;> cases r <;> simp_all [dd]

theorem opposite_of {zt : K} (hz : 0 ≤ zt) {pl : Plane K} {a b : Vtx K} (hA : behind zt pl a = true)
    (hB : ¬ dist pl b.pt ≤ 10 * zt) : Opposite pl a.pt b.pt ∧ Opposite pl b.pt a.pt := by
  simp only [behind, decide_eq_true_eq] at hA
  exact ⟨Or.inr ⟨by linarith, by linarith⟩, Or.inl ⟨by linarith, by linarith⟩⟩

theorem between_of_label {zt : K} (hz : 0 ≤ zt) (pl : Plane K) {f : V3 K → Bool} (hf : ConvexLabel f) :
    Between (behind zt pl) (entry zt pl) (exit zt pl) (fun v => f v.pt) := by
  constructor
  · intro a b hA hB
    unfold entry
    split
    · simp [Vtx.set, dd_self]
    · rename_i h
      have hp := param_mem (opposite_of hz hA h).1
      exact dd_between (fun e => hf _ _ _ hp.1 hp.2 e)
  · intro a b hA hB
    unfold exit
    split
    · simp [Vtx.set, dd_self]
    · rename_i h
      have hp := param_mem (opposite_of hz hB h).2
      exact dd_between (fun e => hf _ _ _ hp.1 hp.2 e)

theorem between_of_flag {zt : K} (hz : 0 ≤ zt) (pl : Plane K) {f : V3 K → Bool} (hf : ConvexLabel f) {k : Nat}
    (hk : k < pl.index) :
    Between (behind zt pl) (entry zt pl) (exit zt pl) (fun v => v.on k && f v.pt) := by
  have hne : k ≠ pl.index := by omega
  constructor
  · intro a b hA hB
    unfold entry
    split
    · simp [Vtx.set, dd_self, hne]
    · rename_i h
      have hp := param_mem (opposite_of hz hA h).1
      simp only [mid, Vtx.set, hne, if_false, hk, decide_true, Bool.true_and]
      cases a.on k <;> cases b.on k
      · simp [dd]
      · simp [dd]
      · simp [dd]
      · simp only [Bool.true_and]
        exact dd_between (fun e => hf _ _ _ hp.1 hp.2 e)
  · intro a b hA hB
    unfold exit
    split
    · simp [Vtx.set, dd_self, hne]
    · rename_i h
      have hp := param_mem (opposite_of hz hB h).2
      simp only [mid, Vtx.set, hne, if_false, hk, decide_true, Bool.true_and]
      cases a.on k <;> cases b.on k
      · simp [dd]
      · simp [dd]
      · simp [dd]
      · simp only [Bool.true_and]
        exact dd_between (fun e => hf _ _ _ hp.1 hp.2 e)

theorem convex_combination {t p q r : K} (ht : 0 ≤ t) (ht1 : t ≤ 1) :
    (r ≤ p → r ≤ q → r ≤ p + t * (q - p)) ∧ (p ≤ r → q ≤ r → p + t * (q - p) ≤ r) ∧
    (r < p → r < q → r < p + t * (q - p)) ∧ (p < r → q < r → p + t * (q - p) < r) := by
  have e : p + t * (q - p) = (1 - t) * p + t * q := by ring
  have h1 : 0 ≤ 1 - t := by linarith
  rw [e]
  refine ⟨fun a b => ?_, fun a b => ?_, fun a b => ?_, fun a b => ?_⟩
  · nlinarith [mul_nonneg h1 (sub_nonneg.2 a), mul_nonneg ht (sub_nonneg.2 b)]
  · nlinarith [mul_nonneg h1 (sub_nonneg.2 a), mul_nonneg ht (sub_nonneg.2 b)]
  · rcases eq_or_lt_of_le ht with rfl | h
    · simpa using a
    · nlinarith [mul_nonneg h1 (sub_nonneg.2 a.le), mul_pos h (sub_pos.2 b)]
  · rcases eq_or_lt_of_le ht with rfl | h
    · simpa using a
    · nlinarith [mul_nonneg h1 (sub_nonneg.2 a.le), mul_pos h (sub_pos.2 b)]

/-- An affine function of points. -/
def Affine (g : V3 K → K) : Prop := ∀ a b t, g (lerp a b t) = g a + t * (g b - g a)

theorem label_of_affine {g : V3 K → K} (hg : Affine g) (c : K) : ConvexLabel (fun p => decide (g p < c)) := by
  intro a b t h0 h1 e
  have hc := convex_combination (p := g a) (q := g b) (r := c) h0 h1
  simp only [hg a b t]
  simp only [decide_eq_decide] at e
  by_cases ha : g a < c
  · simp only [ha, decide_true, decide_eq_true_eq]; exact hc.2.2.2 ha (e.1 ha)
  · have hb : ¬ g b < c := fun h => ha (e.2 h)
    simp only [ha, decide_false, decide_eq_false_iff_not, not_lt]
    exact hc.1 (not_lt.1 ha) (not_lt.1 hb)

theorem label_of_affine' {g : V3 K → K} (hg : Affine g) (c : K) : ConvexLabel (fun p => decide (c < g p)) := by
  intro a b t h0 h1 e
  have hc := convex_combination (p := g a) (q := g b) (r := c) h0 h1
  simp only [hg a b t]
  simp only [decide_eq_decide] at e
  by_cases ha : c < g a
  · simp only [ha, decide_true, decide_eq_true_eq]; exact hc.2.2.1 ha (e.1 ha)
  · have hb : ¬ c < g b := fun h => ha (e.2 h)
    simp only [ha, decide_false, decide_eq_false_iff_not, not_lt]
    exact hc.2.1 (not_lt.1 ha) (not_lt.1 hb)

omit [LinearOrder K] [IsStrictOrderedRing K] in
theorem dist_affine (pl : Plane K) : Affine (dist pl) := fun a b t => dist_lerp pl a b t

theorem behind_label (zt : K) (pl : Plane K) : ConvexLabel (fun p => decide (dist pl p < -(10 * zt))) :=
  label_of_affine (dist_affine pl) _

/-- Every convex label changes at most twice around the polygon. -/
def ConvexPoly (l : List (Vtx K)) : Prop := ∀ f : V3 K → Bool, ConvexLabel f → cyc (fun v => f v.pt) l ≤ 2

theorem convexPoly_cut {zt : K} (hz : 0 ≤ zt) (pl : Plane K) {l : List (Vtx K)} (h : ConvexPoly l) :
    ConvexPoly (cut zt pl l) :=
  fun f hf => le_trans (clip_cyc (between_of_label hz pl hf) l) (h f hf)

theorem convexPoly_three (a b c : Vtx K) : ConvexPoly [a, b, c] := fun _ _ => cyc_three _ _ _ _

theorem cut_length_le {zt : K} (pl : Plane K) {l : List (Vtx K)} (h : ConvexPoly l) :
    (cut zt pl l).length ≤ l.length + 1 :=
  clip_length_le l (h _ (behind_label zt pl))

/-- A predicate that holds at both ends of an edge and does not depend on the flags holds for the clipped
polygon. -/
theorem cut_forall {zt : K} (hz : 0 ≤ zt) (pl : Plane K) {l : List (Vtx K)} {P : V3 K → Prop}
    (hP : ∀ a b t, 0 ≤ t → t ≤ 1 → P a → P b → P (lerp a b t)) (h : ∀ v ∈ l, P v.pt) :
    ∀ v ∈ cut zt pl l, P v.pt := by
  intro v hv
  rcases clip_mem hv with ⟨h1, _⟩ | ⟨a, ha, b, hb, ⟨hA, hB, rfl⟩ | ⟨hA, hB, rfl⟩⟩
  · exact h v h1
  · unfold entry
    split
    · exact h b hb
    · rename_i hn
      have hp := param_mem (opposite_of hz hA hn).1
      exact hP _ _ _ hp.1 hp.2 (h a ha) (h b hb)
  · unfold exit
    split
    · exact h a ha
    · rename_i hn
      have hp := param_mem (opposite_of hz hB hn).2
      exact hP _ _ _ hp.1 hp.2 (h a ha) (h b hb)

/-- The clipped polygon lies in the half-space up to the tolerance. -/
theorem cut_dist {zt : K} (hz : 0 ≤ zt) (pl : Plane K) {l : List (Vtx K)} :
    ∀ v ∈ cut zt pl l, dist pl v.pt ≤ 10 * zt := by
  intro v hv
  rcases clip_mem hv with ⟨_, h1⟩ | ⟨a, ha, b, hb, ⟨hA, hB, rfl⟩ | ⟨hA, hB, rfl⟩⟩
  · simp only [behind, decide_eq_true_eq] at h1; linarith
  · unfold entry
    split
    · assumption
    · rename_i hn
      show dist pl (lerp _ _ _) ≤ _
      rw [dist_cut (opposite_of hz hA hn).1]; linarith
  · unfold exit
    split
    · assumption
    · rename_i hn
      show dist pl (lerp _ _ _) ≤ _
      rw [dist_cut (opposite_of hz hB hn).2]; linarith

/-- Cut points are not behind the plane. -/
theorem entry_not_behind {zt : K} (hz : 0 ≤ zt) (pl : Plane K) (a b : Vtx K) (hA : behind zt pl a = true)
    (hB : behind zt pl b = false) : behind zt pl (entry zt pl a b) = false := by
  unfold entry
  split
  · exact hB
  · rename_i hn
    simp only [behind, mid, Vtx.set, dist_cut (opposite_of hz hA hn).1]
    simp; linarith

theorem exit_not_behind {zt : K} (hz : 0 ≤ zt) (pl : Plane K) (a b : Vtx K) (hA : behind zt pl a = false)
    (hB : behind zt pl b = true) : behind zt pl (exit zt pl a b) = false := by
  unfold exit
  split
  · exact hA
  · rename_i hn
    simp only [behind, mid, Vtx.set, dist_cut (opposite_of hz hB hn).2]
    simp; linarith

end QuESo.Clip
