import Verif.Proofs.ClipBoundary
import Verif.Spec.ClipPartition
import Verif.Proofs.GeometryQuery

/-! # Clipping by neighbouring cells divides a surface -/
namespace QuESo.Clip
open QuESo.Cyc QuESo.Spec QuESo.IO
variable {K : Type} [Field K] [LinearOrder K] [IsStrictOrderedRing K]

/-! ## Sums over the edges of a clipped polygon -/

/-- The sum of a quantity over the edges of a closed polygon. -/
def loopSum (h : V3 K → V3 K → K) (l : List (Vtx K)) : K := ((cyclicPairs l).map fun e => h e.1.pt e.2.pt).sum

/-- The point where an edge leaves the half-space. -/
def leaves (zt : K) (pl : Plane K) (a b : V3 K) : V3 K := if dist pl b ≤ 10 * zt then b else lerp a b (param pl a b)

/-- The point where an edge enters the half-space. -/
def enters (zt : K) (pl : Plane K) (a b : V3 K) : V3 K := if dist pl a ≤ 10 * zt then a else lerp a b (param pl a b)

/-- What an edge contributes to the sum over the clipped polygon, if on the plane the quantity has the potential `G`. -/
def share (zt : K) (pl : Plane K) (h : V3 K → V3 K → K) (G : V3 K → K) (a b : V3 K) : K :=
  if dist pl a < -(10 * zt) then (if dist pl b < -(10 * zt) then h a b else h a (leaves zt pl a b) - G (leaves zt pl a b))
  else if dist pl b < -(10 * zt) then G (enters zt pl a b) + h (enters zt pl a b) b else 0

theorem entry_pt (zt : K) (pl : Plane K) (a b : Vtx K) : (entry zt pl a b).pt = leaves zt pl a.pt b.pt := by
  unfold entry leaves mid; split <;> rfl

theorem exit_pt (zt : K) (pl : Plane K) (a b : Vtx K) : (exit zt pl a b).pt = enters zt pl a.pt b.pt := by
  unfold exit enters mid; split <;> rfl

/-- The edge has its cut points in `S`. -/
def CutsIn (zt : K) (pl : Plane K) (S : V3 K → Prop) (a b : V3 K) : Prop :=
  (dist pl a < -(10 * zt) → ¬ dist pl b < -(10 * zt) → S (leaves zt pl a b)) ∧
  (¬ dist pl a < -(10 * zt) → dist pl b < -(10 * zt) → S (enters zt pl a b))

/-- The last emitted vertex `s` when the loop is at `a`. -/
def Ready (zt : K) (pl : Plane K) (h : V3 K → V3 K → K) (G : V3 K → K) (S : V3 K → Prop) (a s : Vtx K) : Prop :=
  (behind zt pl a = true → s = a) ∧ (behind zt pl a = false → ∀ q, S q → h s.pt q = G q - G s.pt)

/-- What is open at the end of the loop. -/
def rest (zt : K) (pl : Plane K) (G : V3 K → K) (a s : Vtx K) : K := if behind zt pl a then 0 else G s.pt

theorem emits_sum {zt : K} {pl : Plane K} {h : V3 K → V3 K → K} {G : V3 K → K} {S : V3 K → Prop}
    (hG : ∀ p q, S p → S q → h p q = G q - G p) (a s : Vtx K) (r : List (Vtx K)) (hs : Ready zt pl h G S a s)
    (hr : ∀ e ∈ pairs a r, CutsIn zt pl S e.1.pt e.2.pt) :
    ((pairs s (emits (behind zt pl) (entry zt pl) (exit zt pl) a r)).map fun e => h e.1.pt e.2.pt).sum =
      ((pairs a r).map fun e => share zt pl h G e.1.pt e.2.pt).sum - rest zt pl G a s +
        rest zt pl G (lastD a r) (lastD s (emits (behind zt pl) (entry zt pl) (exit zt pl) a r)) ∧
    Ready zt pl h G S (lastD a r) (lastD s (emits (behind zt pl) (entry zt pl) (exit zt pl) a r)) := by
  induction r generalizing a s with
  | nil => exact ⟨by simp [pairs, emits, lastD], hs⟩
  | cons b r ih =>
    have hc := hr (a, b) (by simp [pairs])
    have hr' : ∀ e ∈ pairs b r, CutsIn zt pl S e.1.pt e.2.pt := fun e he => hr e (by simp [pairs, he])
    rw [emits, pairs_append, lastD_append, pairs, List.map_append, List.sum_append, List.map_cons, List.sum_cons]
    have key : ((pairs s (edge (behind zt pl) (entry zt pl) (exit zt pl) a b)).map fun e => h e.1.pt e.2.pt).sum =
        share zt pl h G a.pt b.pt - rest zt pl G a s + rest zt pl G b (lastD s (edge (behind zt pl) (entry zt pl) (exit zt pl) a b)) ∧
        Ready zt pl h G S b (lastD s (edge (behind zt pl) (entry zt pl) (exit zt pl) a b)) := by
      unfold edge share rest
      obtain ⟨c1, c2⟩ := hc
      cases hA : behind zt pl a <;> cases hB : behind zt pl b
      · have hA' : ¬ dist pl a.pt < -(10 * zt) := by simpa [behind] using hA
        have hB' : ¬ dist pl b.pt < -(10 * zt) := by simpa [behind] using hB
        simp only [hA', hB', if_false, Bool.false_eq_true, pairs, List.map_nil, List.sum_nil, lastD]
        refine ⟨by ring, fun h => (by rw [hB] at h; cases h), fun _ => hs.2 hA⟩
      · have hA' : ¬ dist pl a.pt < -(10 * zt) := by simpa [behind] using hA
        have hB' : dist pl b.pt < -(10 * zt) := by simpa [behind] using hB
        have hS := c2 hA' hB'
        simp only [hA', hB', if_false, if_true, Bool.false_eq_true, pairs, List.map_cons, List.map_nil, List.sum_cons, List.sum_nil, lastD]
        refine ⟨?_, fun _ => rfl, fun h => (by rw [hB] at h; cases h)⟩
        rw [exit_pt, hs.2 hA _ hS]
        ring
      · have hA' : dist pl a.pt < -(10 * zt) := by simpa [behind] using hA
        have hB' : ¬ dist pl b.pt < -(10 * zt) := by simpa [behind] using hB
        have hS := c1 hA' hB'
        simp only [hA', hB', if_false, if_true, Bool.false_eq_true, pairs, List.map_cons, List.map_nil, List.sum_cons, List.sum_nil, lastD]
        refine ⟨?_, fun h => (by rw [hB] at h; cases h), fun _ q hq => ?_⟩
        · rw [entry_pt, hs.1 hA]; ring
        · rw [entry_pt]; exact hG _ _ hS hq
      · have hA' : dist pl a.pt < -(10 * zt) := by simpa [behind] using hA
        have hB' : dist pl b.pt < -(10 * zt) := by simpa [behind] using hB
        simp only [hA', hB', if_true, pairs, List.map_cons, List.map_nil, List.sum_cons, List.sum_nil, lastD]
        refine ⟨?_, fun _ => rfl, fun h => (by rw [hB] at h; cases h)⟩
        rw [hs.1 hA]; ring
    obtain ⟨k1, k2⟩ := key
    obtain ⟨i1, i2⟩ := ih b _ k2 hr'
    refine ⟨?_, i2⟩
    rw [k1, i1]
    simp only [lastD]
    ring

omit [LinearOrder K] [IsStrictOrderedRing K] in
theorem loopSum_cons (h : V3 K → V3 K → K) (b : Vtx K) (l : List (Vtx K)) :
    loopSum h (b :: l) = ((pairs (lastD b l) (b :: l)).map fun e => h e.1.pt e.2.pt).sum :=
  ((cyclicPairs_perm b l).map _).sum_eq

/-- The sum over the clipped polygon. -/
theorem loopSum_cut {zt : K} {pl : Plane K} {h : V3 K → V3 K → K} {G : V3 K → K} {S : V3 K → Prop}
    (hG : ∀ p q, S p → S q → h p q = G q - G p) (l : List (Vtx K))
    (hr : ∀ e ∈ cyclicPairs l, CutsIn zt pl S e.1.pt e.2.pt) :
    loopSum h (cut zt pl l) = loopSum (share zt pl h G) l := by
  cases l with
  | nil => rfl
  | cons b l =>
    rw [loopSum_cons]
    set a := lastD b l with hadef
    have hr' : ∀ e ∈ pairs a (b :: l), CutsIn zt pl S e.1.pt e.2.pt := fun e he => hr e ((cyclicPairs_perm b l).mem_iff.2 he)
    have hlast : lastD a (b :: l) = a := rfl
    have step := fun s hs => emits_sum hG a s (b :: l) hs hr'
    obtain ⟨s0, hs0⟩ : ∃ s, Ready zt pl h G S a s := by
      cases hA : behind zt pl a
      · by_cases hS : ∃ p, S p
        · obtain ⟨p, hp⟩ := hS
          exact ⟨bare p, And.intro (fun h => (by rw [hA] at h; cases h)) (fun _ q hq => hG _ _ hp hq)⟩
        · exact ⟨a, And.intro (fun _ => rfl) (fun _ q hq => absurd ⟨q, hq⟩ hS)⟩
      · exact ⟨a, And.intro (fun _ => rfl) (fun h => (by rw [hA] at h; cases h))⟩
    obtain ⟨h1, h2⟩ := step s0 hs0
    rw [hlast] at h1 h2
    change loopSum h (emits (behind zt pl) (entry zt pl) (exit zt pl) a (b :: l)) = _
    cases hE : emits (behind zt pl) (entry zt pl) (exit zt pl) a (b :: l) with
    | nil =>
      rw [hE] at h1
      simp only [pairs, List.map_nil, List.sum_nil, lastD] at h1
      simp only [loopSum, cyclicPairs, List.rotate_nil, List.zip_nil_left, List.map_nil, List.sum_nil, pairs]
      linarith
    | cons c E =>
      rw [hE] at h2
      obtain ⟨h3, -⟩ := step _ h2
      rw [hlast, hE] at h3
      rw [loopSum_cons]
      have e : lastD c E = lastD s0 (c :: E) := rfl
      rw [e]
      have e2 : lastD (lastD s0 (c :: E)) (c :: E) = lastD s0 (c :: E) := rfl
      rw [e2] at h3
      rw [h3]
      ring

/-! ## Both sides of a plane -/

/-- The two planes bound opposite half-spaces. -/
def Flip (pl pl' : Plane K) : Prop := ∀ p, dist pl' p = -dist pl p

/-- Close to the plane means on the plane. -/
def Sharp (zt : K) (pl : Plane K) (p : V3 K) : Prop := dist pl p ≤ 10 * zt → -(10 * zt) ≤ dist pl p → dist pl p = 0

theorem loopSum_congr {h h' : V3 K → V3 K → K} {l : List (Vtx K)} (e : ∀ p ∈ cyclicPairs l, h p.1.pt p.2.pt = h' p.1.pt p.2.pt) :
    loopSum h l = loopSum h' l := by
  unfold loopSum
  rw [List.map_congr_left e]

theorem mem_cyclicPairs {α : Type _} {l : List α} {e : α × α} (h : e ∈ cyclicPairs l) : e.1 ∈ l ∧ e.2 ∈ l := by
  unfold cyclicPairs at h
  have := List.of_mem_zip (a := e.1) (b := e.2) h
  exact ⟨this.1, List.mem_rotate.1 this.2⟩

/-- The cut points of an edge are on the plane and in every convex set with both ends. -/
theorem cutsIn {zt : K} (hz : 0 ≤ zt) {pl : Plane K} {H : V3 K → Prop} (hH : ∀ a b t, 0 ≤ t → t ≤ 1 → H a → H b → H (lerp a b t)) {a b : V3 K}
    (ha : H a) (hb : H b) (sa : Sharp zt pl a) (sb : Sharp zt pl b) : CutsIn zt pl (fun p => dist pl p = 0 ∧ H p) a b := by
  constructor
  · intro h1 h2
    unfold leaves
    split
    · rename_i h3; exact ⟨sb h3 (not_lt.1 h2), hb⟩
    · rename_i h3
      have ho : Opposite pl a b := Or.inr ⟨by linarith, by linarith⟩
      exact ⟨dist_cut ho, hH _ _ _ (param_mem ho).1 (param_mem ho).2 ha hb⟩
  · intro h1 h2
    unfold enters
    split
    · rename_i h3; exact ⟨sa h3 (not_lt.1 h1), ha⟩
    · rename_i h3
      have ho : Opposite pl a b := Or.inl ⟨by linarith, by linarith⟩
      exact ⟨dist_cut ho, hH _ _ _ (param_mem ho).1 (param_mem ho).2 ha hb⟩

/-- A quantity that adds up when an edge is cut. -/
theorem cut_lerp {g : V3 K → V3 K → K} (hg : EdgeQuantity g) (a b : V3 K) {t : K} (h0 : 0 ≤ t) (h1 : t ≤ 1) : g a (lerp a b t) + g (lerp a b t) b = g a b :=
  (hg.cut a (lerp a b t) b ⟨t, ⟨h0, h1⟩, rfl⟩).symm

theorem self_zero {g : V3 K → V3 K → K} (hg : EdgeQuantity g) (a : V3 K) : g a a = 0 := by
  have := hg.swap a a
  linarith

theorem share_flip {zt : K} (hz : 0 ≤ zt) {pl pl' : Plane K} (hf : Flip pl pl') {g : V3 K → V3 K → K} (hg : EdgeQuantity g) {G : V3 K → K} {H : V3 K → Prop}
    (hG : ∀ p q, dist pl p = 0 ∧ H p → dist pl q = 0 ∧ H q → g p q = G q - G p) {a b : V3 K} (ha : H a) (hb : H b)
    (sa : Sharp zt pl a) (sb : Sharp zt pl b) :
    share zt pl g G a b + share zt pl' g G a b = g a b + ((if dist pl a = 0 then G a else 0) - if dist pl b = 0 then G b else 0) := by
  have hp : param pl' a b = param pl a b := by
    unfold param
    rw [hf, hf]
    rw [show -dist pl a - -dist pl b = -(dist pl a - dist pl b) by ring, neg_div_neg_eq]
  have h10 : 0 ≤ 10 * zt := by linarith
  unfold share leaves enters
  rw [hf, hf, hp]
  generalize hm : lerp a b (param pl a b) = m
  rcases lt_trichotomy (dist pl a) 0 with da | da | da <;> rcases lt_trichotomy (dist pl b) 0 with db | db | db
  · have a1 : dist pl a < -(10 * zt) := by
      by_contra hn; have := sa (by linarith) (by linarith); linarith
    have b1 : dist pl b < -(10 * zt) := by
      by_contra hn; have := sb (by linarith) (by linarith); linarith
    rw [if_pos a1, if_pos b1, if_neg (by linarith), if_neg (by linarith), if_neg da.ne, if_neg db.ne]
    ring
  · have a1 : dist pl a < -(10 * zt) := by
      by_contra hn; have := sa (by linarith) (by linarith); linarith
    rw [if_pos a1, if_neg (by linarith), if_pos (by linarith), if_neg (by linarith), if_neg (by linarith), if_neg da.ne, if_pos db]
    ring
  · have a1 : dist pl a < -(10 * zt) := by
      by_contra hn; have := sa (by linarith) (by linarith); linarith
    have b1 : 10 * zt < dist pl b := by
      by_contra hn; have := sb (by linarith) (by linarith); linarith
    have ho : Opposite pl a b := Or.inr ⟨da, db⟩
    have := cut_lerp hg a b (param_mem ho).1 (param_mem ho).2
    rw [hm] at this
    rw [if_pos a1, if_neg (by linarith), if_neg (by linarith), if_neg (by linarith), if_pos (by linarith), if_neg (by linarith), if_neg da.ne, if_neg db.ne']
    linarith
  · have b1 : dist pl b < -(10 * zt) := by
      by_contra hn; have := sb (by linarith) (by linarith); linarith
    rw [if_neg (by linarith), if_pos b1, if_pos (by linarith), if_neg (by linarith), if_neg (by linarith), if_pos da, if_neg db.ne]
    ring
  · rw [if_neg (by linarith), if_neg (by linarith), if_neg (by linarith), if_neg (by linarith), if_pos da, if_pos db]
    rw [hG a b ⟨da, ha⟩ ⟨db, hb⟩]
    ring
  · have b1 : 10 * zt < dist pl b := by
      by_contra hn; have := sb (by linarith) (by linarith); linarith
    rw [if_neg (by linarith), if_neg (by linarith), if_neg (by linarith), if_pos (by linarith), if_pos (by linarith), if_pos da, if_neg db.ne']
    ring
  · have a1 : 10 * zt < dist pl a := by
      by_contra hn; have := sa (by linarith) (by linarith); linarith
    have b1 : dist pl b < -(10 * zt) := by
      by_contra hn; have := sb (by linarith) (by linarith); linarith
    have ho : Opposite pl a b := Or.inl ⟨da, db⟩
    have := cut_lerp hg a b (param_mem ho).1 (param_mem ho).2
    rw [hm] at this
    rw [if_neg (by linarith), if_pos b1, if_neg (by linarith), if_pos (by linarith), if_neg (by linarith), if_neg (by linarith), if_neg da.ne', if_neg db.ne]
    linarith
  · have a1 : 10 * zt < dist pl a := by
      by_contra hn; have := sa (by linarith) (by linarith); linarith
    rw [if_neg (by linarith), if_neg (by linarith), if_pos (by linarith), if_neg (by linarith), if_pos (by linarith), if_neg da.ne', if_pos db]
    ring
  · have a1 : 10 * zt < dist pl a := by
      by_contra hn; have := sa (by linarith) (by linarith); linarith
    have b1 : 10 * zt < dist pl b := by
      by_contra hn; have := sb (by linarith) (by linarith); linarith
    rw [if_neg (by linarith), if_neg (by linarith), if_pos (by linarith), if_pos (by linarith), if_neg da.ne', if_neg db.ne']
    ring

/-- A polygon and a plane: the vertices are in a convex set, none is close to the plane without being on it, and on the plane the quantity
has a potential. -/
structure Fits (zt : K) (pl : Plane K) (g : V3 K → V3 K → K) (H : V3 K → Prop) (l : List (Vtx K)) : Prop where
  mem : ∀ v ∈ l, H v.pt
  sharp : ∀ v ∈ l, Sharp zt pl v.pt

/-- On the plane the quantity adds up. -/
def Straight (pl : Plane K) (g : V3 K → V3 K → K) (H : V3 K → Prop) : Prop :=
  ∀ p q r, (dist pl p = 0 ∧ H p) → (dist pl q = 0 ∧ H q) → (dist pl r = 0 ∧ H r) → g p r = g p q + g q r

theorem potential {pl : Plane K} {g : V3 K → V3 K → K} (hg : EdgeQuantity g) {H : V3 K → Prop} (hs : Straight pl g H) :
    ∃ G : V3 K → K, ∀ p q, (dist pl p = 0 ∧ H p) → (dist pl q = 0 ∧ H q) → g p q = G q - G p := by
  by_cases h : ∃ o, dist pl o = 0 ∧ H o
  · obtain ⟨o, ho⟩ := h
    refine ⟨fun q => g o q, fun p q hp hq => ?_⟩
    have := hs o p q ho hp hq
    linarith
  · exact ⟨fun _ => 0, fun p q hp _ => absurd ⟨p, hp⟩ h⟩

omit [LinearOrder K] [IsStrictOrderedRing K] in
theorem sum_map_sub' {ι : Type _} (f g : ι → K) (l : List ι) : (l.map fun i => f i - g i).sum = (l.map f).sum - (l.map g).sum := by
  induction l with
  | nil => simp
  | cons a l ih => simp only [List.map_cons, List.sum_cons, ih]; ring

/-- A polygon is divided by a plane. -/
theorem loopSum_divide {zt : K} (hz : 0 ≤ zt) {pl pl' : Plane K} (hf : Flip pl pl') {g : V3 K → V3 K → K} (hg : EdgeQuantity g) {H : V3 K → Prop}
    (hH : ∀ a b t, 0 ≤ t → t ≤ 1 → H a → H b → H (lerp a b t)) (hs : Straight pl g H) {l : List (Vtx K)} (hl : Fits zt pl g H l) :
    loopSum g (cut zt pl l) + loopSum g (cut zt pl' l) = loopSum g l := by
  obtain ⟨G, hG⟩ := potential hg hs
  have sharp' : ∀ p, Sharp zt pl p → Sharp zt pl' p := by
    intro p hp
    unfold Sharp at hp ⊢
    rw [hf]
    intro h1 h2
    rw [hp (by linarith) (by linarith), neg_zero]
  have hG' : ∀ p q, (dist pl' p = 0 ∧ H p) → (dist pl' q = 0 ∧ H q) → g p q = G q - G p := by
    intro p q hp hq
    rw [hf] at hp hq
    exact hG p q ⟨by linarith [hp.1], hp.2⟩ ⟨by linarith [hq.1], hq.2⟩
  rw [loopSum_cut hG l fun e he => cutsIn hz hH (hl.mem _ (mem_cyclicPairs he).1) (hl.mem _ (mem_cyclicPairs he).2) (hl.sharp _ (mem_cyclicPairs he).1)
      (hl.sharp _ (mem_cyclicPairs he).2),
    loopSum_cut hG' l fun e he => cutsIn hz hH (hl.mem _ (mem_cyclicPairs he).1) (hl.mem _ (mem_cyclicPairs he).2) (sharp' _ (hl.sharp _ (mem_cyclicPairs he).1))
      (sharp' _ (hl.sharp _ (mem_cyclicPairs he).2))]
  unfold loopSum
  rw [← List.sum_map_add]
  rw [List.map_congr_left (g := fun e => g e.1.pt e.2.pt + ((if dist pl e.1.pt = 0 then G e.1.pt else 0) - if dist pl e.2.pt = 0 then G e.2.pt else 0)) fun e he =>
    share_flip hz hf hg hG (hl.mem _ (mem_cyclicPairs he).1) (hl.mem _ (mem_cyclicPairs he).2) (hl.sharp _ (mem_cyclicPairs he).1) (hl.sharp _ (mem_cyclicPairs he).2)]
  rw [List.sum_map_add, sum_map_sub']
  have : ((cyclicPairs l).map fun e => if dist pl e.1.pt = 0 then G e.1.pt else 0).sum = ((cyclicPairs l).map fun e => if dist pl e.2.pt = 0 then G e.2.pt else 0).sum := by
    have e1 := congrArg (fun x : List (Vtx K) => (x.map fun v => if dist pl v.pt = 0 then G v.pt else 0).sum) (cyclicPairs_fst l)
    have e2 := congrArg (fun x : List (Vtx K) => (x.map fun v => if dist pl v.pt = 0 then G v.pt else 0).sum) (cyclicPairs_snd l)
    simp only [List.map_map, Function.comp_def] at e1 e2
    rw [e1, e2]
    exact ((List.rotate_perm l 1).map _).sum_eq.symm
  rw [this]
  ring

/-! ## Two parallel planes -/

/-- The second plane lies deeper by `δ`. -/
def Deeper (δ : K) (pl pl' : Plane K) : Prop := ∀ p, dist pl' p = dist pl p + δ

theorem lerp_lerp (a b : V3 K) (s t : K) : lerp a (lerp a b t) s = lerp a b (s * t) := by
  unfold lerp; ext <;> simp <;> ring

theorem lerp_lerp' (a b : V3 K) (s t : K) : lerp (lerp a b t) b s = lerp a b (t + s * (1 - t)) := by
  unfold lerp; ext <;> simp <;> ring

theorem share_deeper {zt : K} (hz : 0 ≤ zt) {pl pl' : Plane K} {δ : K} (hδ : 20 * zt < δ) (hd : Deeper δ pl pl') {g : V3 K → V3 K → K} {G : V3 K → K} {a b : V3 K}
    (sa : Sharp zt pl a) (sb : Sharp zt pl b) :
    share zt pl (share zt pl' g G) (fun _ => 0) a b = share zt pl' g G a b := by
  have hf := hd a
  have hb := hd b
  have h10 : 0 ≤ 10 * zt := by linarith
  conv_lhs => unfold share
  by_cases a1 : dist pl a < -(10 * zt) <;> by_cases b1 : dist pl b < -(10 * zt)
  · rw [if_pos a1, if_pos b1]; rfl
  · rw [if_pos a1, if_neg b1, sub_zero]
    by_cases b2 : dist pl b ≤ 10 * zt
    · have : leaves zt pl a b = b := by unfold leaves; rw [if_pos b2]
      rw [this]; rfl
    · have ho : Opposite pl a b := Or.inr ⟨by linarith, by linarith⟩
      have hm : leaves zt pl a b = lerp a b (param pl a b) := by unfold leaves; rw [if_neg b2]
      have hd0 : dist pl' (lerp a b (param pl a b)) = δ := by rw [hd, dist_cut ho, zero_add]
      rw [hm]
      unfold share
      rw [hd0]
      by_cases a2 : dist pl' a < -(10 * zt)
      · rw [if_pos a2, if_pos a2, if_neg (by linarith), if_neg (by linarith)]
        have e : leaves zt pl' a (lerp a b (param pl a b)) = leaves zt pl' a b := by
          unfold leaves
          rw [hd0, if_neg (by linarith), if_neg (by linarith), lerp_lerp]
          congr 1
          have p0 : dist pl a - dist pl b ≠ 0 := by intro h; linarith
          have p1 : dist pl a ≠ 0 := by intro h; linarith
          have p2 : dist pl' a - δ ≠ 0 := by intro h; linarith
          have hq : ∀ c, param pl' a c = dist pl' a / (dist pl' a - dist pl' c) := fun _ => rfl
          rw [hq, hq, hd0, hb, hf]
          unfold param
          rw [hf] at p2
          have p3 : dist pl a + δ - δ = dist pl a := by ring
          have p4 : dist pl a + δ - (dist pl b + δ) = dist pl a - dist pl b := by ring
          rw [p3, p4, div_mul_div_comm, mul_comm (dist pl a) (dist pl a - dist pl b), mul_div_mul_right _ _ p1]
        rw [e]
      · rw [if_neg a2, if_neg a2, if_neg (by linarith), if_neg (by linarith)]
  · rw [if_neg a1, if_pos b1, zero_add]
    by_cases a2 : dist pl a ≤ 10 * zt
    · have : enters zt pl a b = a := by unfold enters; rw [if_pos a2]
      rw [this]; rfl
    · have ho : Opposite pl a b := Or.inl ⟨by linarith, by linarith⟩
      have hm : enters zt pl a b = lerp a b (param pl a b) := by unfold enters; rw [if_neg a2]
      have hd0 : dist pl' (lerp a b (param pl a b)) = δ := by rw [hd, dist_cut ho, zero_add]
      rw [hm]
      unfold share
      rw [hd0]
      by_cases b2 : dist pl' b < -(10 * zt)
      · have n1 : ¬ δ < -(10 * zt) := by linarith
        have n2 : ¬ dist pl' a < -(10 * zt) := by linarith
        rw [if_neg n1, if_neg n2, if_pos b2, if_pos b2]
        have e : enters zt pl' (lerp a b (param pl a b)) b = enters zt pl' a b := by
          unfold enters
          rw [hd0, if_neg (by linarith), if_neg (by linarith), lerp_lerp']
          congr 1
          have p0 : dist pl a - dist pl b ≠ 0 := by intro h; linarith
          have p1 : δ - dist pl' b ≠ 0 := by intro h; linarith
          have hq : ∀ a c, param pl' a c = dist pl' a / (dist pl' a - dist pl' c) := fun _ _ => rfl
          rw [hq, hq, hd0]
          unfold param
          rw [hb] at p1 ⊢
          rw [hf]
          have p3 : dist pl a + δ - (dist pl b + δ) = dist pl a - dist pl b := by ring
          have p4 : δ - (dist pl b + δ) = -dist pl b := by ring
          rw [p4] at p1
          rw [p3, p4]
          have p5 : dist pl b ≠ 0 := fun h => p1 (by rw [h, neg_zero])
          field_simp
          ring
        rw [e]
      · have n1 : ¬ δ < -(10 * zt) := by linarith
        have n2 : ¬ dist pl' a < -(10 * zt) := by linarith
        rw [if_neg n1, if_neg n2, if_neg b2, if_neg b2]
  · rw [if_neg a1, if_neg b1]
    unfold share
    rw [if_neg (by linarith), if_neg (by linarith)]

/-- If a polygon is clipped by a plane and then by a deeper one, the first cut does not matter. -/
theorem loopSum_deeper {zt : K} (hz : 0 ≤ zt) {pl pl' : Plane K} {δ : K} (hδ : 20 * zt < δ) (hd : Deeper δ pl pl') {g : V3 K → V3 K → K} (hg : EdgeQuantity g)
    {H : V3 K → Prop} (hH : ∀ a b t, 0 ≤ t → t ≤ 1 → H a → H b → H (lerp a b t)) (hs : Straight pl' g H) {l : List (Vtx K)}
    (hl : Fits zt pl g H l) (hl' : Fits zt pl' g H l) (hc : Fits zt pl' g H (cut zt pl l)) :
    loopSum g (cut zt pl' (cut zt pl l)) = loopSum g (cut zt pl' l) := by
  obtain ⟨G, hG⟩ := potential hg hs
  have cuts : ∀ {m : List (Vtx K)}, Fits zt pl' g H m → ∀ e ∈ cyclicPairs m, CutsIn zt pl' (fun p => dist pl' p = 0 ∧ H p) e.1.pt e.2.pt :=
    fun hm e he => cutsIn hz hH (hm.mem _ (mem_cyclicPairs he).1) (hm.mem _ (mem_cyclicPairs he).2) (hm.sharp _ (mem_cyclicPairs he).1)
      (hm.sharp _ (mem_cyclicPairs he).2)
  rw [loopSum_cut hG _ (cuts hc), loopSum_cut hG _ (cuts hl')]
  rw [loopSum_cut (G := fun _ => 0) (S := fun p => dist pl p = 0 ∧ H p) ?_ l fun e he => cutsIn hz hH (hl.mem _ (mem_cyclicPairs he).1) (hl.mem _ (mem_cyclicPairs he).2)
    (hl.sharp _ (mem_cyclicPairs he).1) (hl.sharp _ (mem_cyclicPairs he).2)]
  · exact loopSum_congr fun e he => share_deeper hz hδ hd (hl.sharp _ (mem_cyclicPairs he).1) (hl.sharp _ (mem_cyclicPairs he).2)
  · intro p q hp hq
    have h1 := hd p
    have h2 := hd q
    rw [hp.1] at h1
    rw [hq.1] at h2
    unfold share
    rw [h1, h2, if_neg (by linarith), if_neg (by linarith)]
    ring

/-! ## The edges and vertices of the polygons -/

/-- The edges of a clipped polygon. -/
theorem emits_edges {zt : K} {pl : Plane K} {P : V3 K → V3 K → Prop} {S : V3 K → Prop} (hS : ∀ p q, S p → S q → P p q)
    (a s : Vtx K) (r : List (Vtx K)) (hs : (behind zt pl a = true → s = a) ∧ (behind zt pl a = false → ∀ q, S q → P s.pt q))
    (hr : ∀ e ∈ pairs a r, CutsIn zt pl S e.1.pt e.2.pt) (hb : ∀ e ∈ pairs a r, dist pl e.1.pt < -(10 * zt) → dist pl e.2.pt < -(10 * zt) → P e.1.pt e.2.pt)
    (hl : ∀ e ∈ pairs a r, dist pl e.1.pt < -(10 * zt) → ¬ dist pl e.2.pt < -(10 * zt) → P e.1.pt (leaves zt pl e.1.pt e.2.pt))
    (he : ∀ e ∈ pairs a r, ¬ dist pl e.1.pt < -(10 * zt) → dist pl e.2.pt < -(10 * zt) → P (enters zt pl e.1.pt e.2.pt) e.2.pt) :
    (∀ e ∈ pairs s (emits (behind zt pl) (entry zt pl) (exit zt pl) a r), P e.1.pt e.2.pt) ∧
    (behind zt pl (lastD a r) = true → lastD s (emits (behind zt pl) (entry zt pl) (exit zt pl) a r) = lastD a r) ∧
    (behind zt pl (lastD a r) = false → ∀ q, S q → P (lastD s (emits (behind zt pl) (entry zt pl) (exit zt pl) a r)).pt q) := by
  induction r generalizing a s with
  | nil => exact ⟨by simp [pairs, emits], hs⟩
  | cons b r ih =>
    have sub : ∀ {e}, e ∈ pairs b r → e ∈ pairs a (b :: r) := fun he => by simp [pairs, he]
    have mem : (a, b) ∈ pairs a (b :: r) := by simp [pairs]
    rw [emits, pairs_append, lastD_append]
    have key : (∀ e ∈ pairs s (edge (behind zt pl) (entry zt pl) (exit zt pl) a b), P e.1.pt e.2.pt) ∧
        (behind zt pl b = true → lastD s (edge (behind zt pl) (entry zt pl) (exit zt pl) a b) = b) ∧
        (behind zt pl b = false → ∀ q, S q → P (lastD s (edge (behind zt pl) (entry zt pl) (exit zt pl) a b)).pt q) := by
      unfold edge
      obtain ⟨c1, c2⟩ := hr _ mem
      cases hA : behind zt pl a <;> cases hB : behind zt pl b
      · simp only [Bool.false_eq_true, if_false, pairs, List.not_mem_nil, lastD]
        exact ⟨fun _ h => h.elim, fun h => h.elim, fun _ => hs.2 hA⟩
      · have hA' : ¬ dist pl a.pt < -(10 * zt) := by simpa [behind] using hA
        have hB' : dist pl b.pt < -(10 * zt) := by simpa [behind] using hB
        simp only [Bool.false_eq_true, if_false, if_true, pairs, List.mem_cons, List.not_mem_nil, or_false, lastD, forall_eq_or_imp, forall_eq]
        refine ⟨⟨?_, ?_⟩, by simp, by simp⟩
        · rw [exit_pt]; exact hs.2 hA _ (c2 hA' hB')
        · rw [exit_pt]; exact he _ mem hA' hB'
      · have hA' : dist pl a.pt < -(10 * zt) := by simpa [behind] using hA
        have hB' : ¬ dist pl b.pt < -(10 * zt) := by simpa [behind] using hB
        simp only [Bool.false_eq_true, if_false, if_true, pairs, List.mem_cons, List.not_mem_nil, or_false, lastD, forall_eq]
        refine ⟨?_, fun h => h.elim, fun _ q hq => ?_⟩
        · rw [entry_pt, hs.1 hA]; exact hl _ mem hA' hB'
        · rw [entry_pt]; exact hS _ _ (c1 hA' hB') hq
      · have hA' : dist pl a.pt < -(10 * zt) := by simpa [behind] using hA
        have hB' : dist pl b.pt < -(10 * zt) := by simpa [behind] using hB
        simp only [if_true, pairs, List.mem_cons, List.not_mem_nil, or_false, lastD, forall_eq]
        refine ⟨?_, by simp, by simp⟩
        rw [hs.1 hA]; exact hb _ mem hA' hB'
    obtain ⟨i1, i2⟩ := ih b _ key.2 (fun e h => hr e (sub h)) (fun e h => hb e (sub h)) (fun e h => hl e (sub h)) (fun e h => he e (sub h))
    refine ⟨fun e h => ?_, i2⟩
    rcases List.mem_append.1 h with h | h
    · exact key.1 e h
    · exact i1 e h

/-- The edges of a clipped polygon: parts of the edges, and edges on the plane. -/
theorem cut_edges {zt : K} {pl : Plane K} {P : V3 K → V3 K → Prop} {S : V3 K → Prop} (hS : ∀ p q, S p → S q → P p q) (l : List (Vtx K))
    (hr : ∀ e ∈ cyclicPairs l, CutsIn zt pl S e.1.pt e.2.pt) (hb : ∀ e ∈ cyclicPairs l, dist pl e.1.pt < -(10 * zt) → dist pl e.2.pt < -(10 * zt) → P e.1.pt e.2.pt)
    (hl : ∀ e ∈ cyclicPairs l, dist pl e.1.pt < -(10 * zt) → ¬ dist pl e.2.pt < -(10 * zt) → P e.1.pt (leaves zt pl e.1.pt e.2.pt))
    (he : ∀ e ∈ cyclicPairs l, ¬ dist pl e.1.pt < -(10 * zt) → dist pl e.2.pt < -(10 * zt) → P (enters zt pl e.1.pt e.2.pt) e.2.pt) :
    ∀ e ∈ cyclicPairs (cut zt pl l), P e.1.pt e.2.pt := by
  cases l with
  | nil => intro e h; simp [cut, clip, cyclicPairs] at h
  | cons b l =>
    set a := lastD b l with hadef
    have tr : ∀ {e}, e ∈ pairs a (b :: l) → e ∈ cyclicPairs (b :: l) := fun h => (cyclicPairs_perm b l).mem_iff.2 h
    have hlast : lastD a (b :: l) = a := rfl
    have step := fun s hs => emits_edges hS a s (b :: l) hs (fun e h => hr e (tr h)) (fun e h => hb e (tr h)) (fun e h => hl e (tr h)) (fun e h => he e (tr h))
    obtain ⟨s0, hs0⟩ : ∃ s : Vtx K, (behind zt pl a = true → s = a) ∧ (behind zt pl a = false → ∀ q, S q → P s.pt q) := by
      cases hA : behind zt pl a
      · by_cases hS' : ∃ p, S p
        · obtain ⟨p, hp⟩ := hS'
          exact ⟨bare p, And.intro (fun h => (by cases h)) (fun _ q hq => hS _ _ hp hq)⟩
        · exact ⟨a, And.intro (fun _ => rfl) (fun _ q hq => absurd ⟨q, hq⟩ hS')⟩
      · exact ⟨a, And.intro (fun _ => rfl) (fun h => (by cases h))⟩
    obtain ⟨-, h2⟩ := step s0 hs0
    rw [hlast] at h2
    change ∀ e ∈ cyclicPairs (emits (behind zt pl) (entry zt pl) (exit zt pl) a (b :: l)), _
    cases hE : emits (behind zt pl) (entry zt pl) (exit zt pl) a (b :: l) with
    | nil => intro e h; simp [cyclicPairs] at h
    | cons c E =>
      rw [hE] at h2
      obtain ⟨h3, -⟩ := step _ h2
      rw [hE] at h3
      intro e h
      exact h3 e ((cyclicPairs_perm c E).mem_iff.1 h)

section Grid
variable {c : Nat → Nat → K} {n : Nat → Nat} {p1 p2 p3 : V3 K}

/-- Both points are on one edge of the triangle, or on one plane of the grid. -/
def OnLine (c : Nat → Nat → K) (n : Nat → Nat) (p1 p2 p3 a b : V3 K) : Prop :=
  ((OnSegment p1 a p2 ∧ OnSegment p1 b p2) ∨ (OnSegment p2 a p3 ∧ OnSegment p2 b p3) ∨ (OnSegment p3 a p1 ∧ OnSegment p3 b p1)) ∨
    ∃ d < 3, ∃ i ≤ n d, a.get d = c d i ∧ b.get d = c d i

theorem onSegment_lerp {s t a b : V3 K} {r : K} (h0 : 0 ≤ r) (h1 : r ≤ 1) (ha : OnSegment s a t) (hb : OnSegment s b t) : OnSegment s (lerp a b r) t := by
  obtain ⟨u, ⟨u0, u1⟩, rfl⟩ := ha
  obtain ⟨v, ⟨v0, v1⟩, rfl⟩ := hb
  refine ⟨u + r * (v - u), ⟨(convex_combination h0 h1).1 u0 v0, (convex_combination h0 h1).2.1 u1 v1⟩, ?_⟩
  unfold lerp
  ext <;> simp only <;> ring

theorem onLine_lerp {a b : V3 K} {r : K} (h0 : 0 ≤ r) (h1 : r ≤ 1) (h : OnLine c n p1 p2 p3 a b) :
    OnLine c n p1 p2 p3 a (lerp a b r) ∧ OnLine c n p1 p2 p3 (lerp a b r) b := by
  rcases h with (⟨x, y⟩ | ⟨x, y⟩ | ⟨x, y⟩) | ⟨d, hd, i, hi, x, y⟩
  · have := onSegment_lerp h0 h1 x y; exact ⟨Or.inl (Or.inl ⟨x, this⟩), Or.inl (Or.inl ⟨this, y⟩)⟩
  · have := onSegment_lerp h0 h1 x y; exact ⟨Or.inl (Or.inr (Or.inl ⟨x, this⟩)), Or.inl (Or.inr (Or.inl ⟨this, y⟩))⟩
  · have := onSegment_lerp h0 h1 x y; exact ⟨Or.inl (Or.inr (Or.inr ⟨x, this⟩)), Or.inl (Or.inr (Or.inr ⟨this, y⟩))⟩
  · have : (lerp a b r).get d = c d i := by rw [get_lerp, x, y]; ring
    exact ⟨Or.inr ⟨d, hd, i, hi, x, this⟩, Or.inr ⟨d, hd, i, hi, this, y⟩⟩

/-- The polygon is part of the triangle, and its edges and vertices are where they can be. -/
structure Good (c : Nat → Nat → K) (n : Nat → Nat) (p1 p2 p3 : V3 K) (l : List (Vtx K)) : Prop where
  node : ∀ v ∈ l, IsNode c n p1 p2 p3 v.pt
  line : ∀ e ∈ cyclicPairs l, OnLine c n p1 p2 p3 e.1.pt e.2.pt

/-- A plane of the grid. -/
def Of (c : Nat → Nat → K) (n : Nat → Nat) (pl : Plane K) : Prop := ∃ d < 3, ∃ i ≤ n d, pl.index / 2 = d ∧ pl.position = c d i

theorem dist_zero {pl : Plane K} {p : V3 K} : dist pl p = 0 ↔ p.get (pl.index / 2) = pl.position := by
  unfold dist
  split
  · rw [sub_eq_zero]; exact eq_comm
  · rw [sub_eq_zero]

theorem sharp_of_node {zt δ : K} (hδ : 10 * zt ≤ δ) (hc : ClearOfGrid c n δ p1 p2 p3) {pl : Plane K} (hp : Of c n pl) {q : V3 K} (hq : IsNode c n p1 p2 p3 q)
    (h1 : dist pl q ≤ δ) (h2 : -δ ≤ dist pl q) : dist pl q = 0 := by
  obtain ⟨d, hd, i, hi, e1, e2⟩ := hp
  rw [dist_zero, e1, e2]
  refine hc.clear q hq d hd i hi ?_ ?_
  all_goals
    unfold dist at h1 h2
    rw [e1, e2] at h1 h2
    split at h1 <;> split at h2 <;> simp_all <;> linarith

theorem node_cross {pl : Plane K} (hp : Of c n pl) {a b : V3 K} (ha : InTriangle p1 p2 p3 a) (hb : InTriangle p1 p2 p3 b) (h : OnLine c n p1 p2 p3 a b)
    (ho : Opposite pl a b) : IsNode c n p1 p2 p3 (lerp a b (param pl a b)) := by
  have hp01 := param_mem ho
  have h0 : dist pl (lerp a b (param pl a b)) = 0 := dist_cut ho
  obtain ⟨d, hd, i, hi, e1, e2⟩ := hp
  have h0' := h0
  rw [dist_zero, e1, e2] at h0'
  refine ⟨inTriangle_lerp hp01.1 hp01.2 ha hb, ?_⟩
  rcases h with (⟨x, y⟩ | ⟨x, y⟩ | ⟨x, y⟩) | ⟨d', hd', i', hi', x, y⟩
  · exact Or.inr (Or.inl ⟨Or.inl (onSegment_lerp hp01.1 hp01.2 x y), d, hd, i, hi, h0'⟩)
  · exact Or.inr (Or.inl ⟨Or.inr (Or.inl (onSegment_lerp hp01.1 hp01.2 x y)), d, hd, i, hi, h0'⟩)
  · exact Or.inr (Or.inl ⟨Or.inr (Or.inr (onSegment_lerp hp01.1 hp01.2 x y)), d, hd, i, hi, h0'⟩)
  · refine Or.inr (Or.inr ⟨d, hd, d', hd', ?_, ⟨i, hi, h0'⟩, ⟨i', hi', by rw [get_lerp, x, y]; ring⟩⟩)
    rintro rfl
    have : dist pl a = dist pl b := by unfold dist; rw [e1, x, y]
    rcases ho with ⟨h1, h2⟩ | ⟨h1, h2⟩ <;> linarith

theorem good_cut {zt δ : K} (hz : 0 ≤ zt) (hδ : 10 * zt ≤ δ) (hc : ClearOfGrid c n δ p1 p2 p3) {pl : Plane K} (hp : Of c n pl) {l : List (Vtx K)}
    (h : Good c n p1 p2 p3 l) : Good c n p1 p2 p3 (cut zt pl l) := by
  have sh : ∀ v ∈ l, Sharp zt pl v.pt := fun v hv h1 h2 => sharp_of_node hδ hc hp (h.node v hv) (by linarith) (by linarith)
  have h10 : 0 ≤ 10 * zt := by linarith
  have hcross : ∀ e ∈ cyclicPairs l, Opposite pl e.1.pt e.2.pt → IsNode c n p1 p2 p3 (lerp e.1.pt e.2.pt (param pl e.1.pt e.2.pt)) := fun e he ho =>
    node_cross hp (h.node _ (mem_cyclicPairs he).1).1 (h.node _ (mem_cyclicPairs he).2).1 (h.line e he) ho
  have hlv : ∀ e ∈ cyclicPairs l, dist pl e.1.pt < -(10 * zt) → ¬ dist pl e.2.pt < -(10 * zt) →
      IsNode c n p1 p2 p3 (leaves zt pl e.1.pt e.2.pt) ∧ OnLine c n p1 p2 p3 e.1.pt (leaves zt pl e.1.pt e.2.pt) := by
    intro e he h1 h2
    unfold leaves
    split
    · exact ⟨h.node _ (mem_cyclicPairs he).2, h.line e he⟩
    · rename_i h3
      have ho : Opposite pl e.1.pt e.2.pt := Or.inr ⟨by linarith, by linarith⟩
      exact ⟨hcross e he ho, (onLine_lerp (param_mem ho).1 (param_mem ho).2 (h.line e he)).1⟩
  have hen : ∀ e ∈ cyclicPairs l, ¬ dist pl e.1.pt < -(10 * zt) → dist pl e.2.pt < -(10 * zt) →
      IsNode c n p1 p2 p3 (enters zt pl e.1.pt e.2.pt) ∧ OnLine c n p1 p2 p3 (enters zt pl e.1.pt e.2.pt) e.2.pt := by
    intro e he h1 h2
    unfold enters
    split
    · exact ⟨h.node _ (mem_cyclicPairs he).1, h.line e he⟩
    · rename_i h3
      have ho : Opposite pl e.1.pt e.2.pt := Or.inl ⟨by linarith, by linarith⟩
      exact ⟨hcross e he ho, (onLine_lerp (param_mem ho).1 (param_mem ho).2 (h.line e he)).2⟩
  have hcuts : ∀ e ∈ cyclicPairs l, CutsIn zt pl (fun p => dist pl p = 0 ∧ IsNode c n p1 p2 p3 p) e.1.pt e.2.pt := by
    intro e he
    have := cutsIn hz (H := fun _ => True) (fun _ _ _ _ _ _ _ => trivial) trivial trivial (sh _ (mem_cyclicPairs he).1) (sh _ (mem_cyclicPairs he).2)
    exact ⟨fun h1 h2 => ⟨(this.1 h1 h2).1, (hlv e he h1 h2).1⟩, fun h1 h2 => ⟨(this.2 h1 h2).1, (hen e he h1 h2).1⟩⟩
  have key := cut_edges (S := fun p => dist pl p = 0 ∧ IsNode c n p1 p2 p3 p)
    (P := fun p q => IsNode c n p1 p2 p3 p ∧ OnLine c n p1 p2 p3 p q) ?_ l hcuts (fun e he _ _ => ⟨h.node _ (mem_cyclicPairs he).1, h.line e he⟩)
    (fun e he h1 h2 => ⟨h.node _ (mem_cyclicPairs he).1, (hlv e he h1 h2).2⟩) (fun e he h1 h2 => hen e he h1 h2)
  · refine ⟨fun v hv => ?_, fun e he => (key e he).2⟩
    rw [← cyclicPairs_fst (cut zt pl l), List.mem_map] at hv
    obtain ⟨e, he, rfl⟩ := hv
    exact (key e he).1
  · intro p q hp1 hq1
    obtain ⟨d, hd, i, hi, e1, e2⟩ := hp
    refine ⟨hp1.2, Or.inr ⟨d, hd, i, hi, ?_, ?_⟩⟩
    · rw [← e2, ← e1]; exact dist_zero.1 hp1.1
    · rw [← e2, ← e1]; exact dist_zero.1 hq1.1

theorem good_start : Good c n p1 p2 p3 [bare p1, bare p2, bare p3] := by
  have s0 : ∀ a b : V3 K, OnSegment a a b := fun a b => ⟨0, ⟨le_rfl, zero_le_one⟩, by ext <;> simp⟩
  have s1 : ∀ a b : V3 K, OnSegment a b b := fun a b => ⟨1, ⟨zero_le_one, le_rfl⟩, by ext <;> simp⟩
  constructor
  · intro v hv
    simp only [List.mem_cons, List.not_mem_nil, or_false] at hv
    rcases hv with rfl | rfl | rfl
    · exact ⟨⟨1, 0, 0, zero_le_one, le_rfl, le_rfl, by simp, by simp [bare], by simp [bare], by simp [bare]⟩, Or.inl (Or.inl rfl)⟩
    · exact ⟨⟨0, 1, 0, le_rfl, zero_le_one, le_rfl, by simp, by simp [bare], by simp [bare], by simp [bare]⟩, Or.inl (Or.inr (Or.inl rfl))⟩
    · exact ⟨⟨0, 0, 1, le_rfl, le_rfl, zero_le_one, by simp, by simp [bare], by simp [bare], by simp [bare]⟩, Or.inl (Or.inr (Or.inr rfl))⟩
  · intro e he
    have : cyclicPairs [bare p1, bare p2, bare p3] = [(bare p1, bare p2), (bare p2, bare p3), (bare p3, bare p1)] := rfl
    rw [this] at he
    simp only [List.mem_cons, List.not_mem_nil, or_false] at he
    rcases he with rfl | rfl | rfl
    · exact Or.inl (Or.inl ⟨s0 _ _, s1 _ _⟩)
    · exact Or.inl (Or.inr (Or.inl ⟨s0 _ _, s1 _ _⟩))
    · exact Or.inl (Or.inr (Or.inr ⟨s0 _ _, s1 _ _⟩))

/-! ## The component of the area vector -/

/-- The contribution of an edge to the area vector. -/
def crossOf (d : Nat) (a b : V3 K) : K :=
  (⟨a.y * b.z - a.z * b.y, a.z * b.x - a.x * b.z, a.x * b.y - a.y * b.x⟩ : V3 K).get d

theorem crossOf_edge (d : Nat) : EdgeQuantity (crossOf (K := K) d) := by
  constructor
  · intro a b
    unfold crossOf
    match d with
    | 0 => simp only [V3.get]; ring
    | 1 => simp only [V3.get]; ring
    | _ + 2 => simp only [V3.get]; ring
  · rintro a b e ⟨s, -, rfl⟩
    unfold crossOf
    match d with
    | 0 => simp only [V3.get]; ring
    | 1 => simp only [V3.get]; ring
    | _ + 2 => simp only [V3.get]; ring

theorem crossOf_tri (d : Nat) (p q r : V3 K) : crossOf d p q + crossOf d q r + crossOf d r p = (triangleArea2 p q r).get d := by
  unfold crossOf triangleArea2
  match d with
  | 0 => simp only [V3.get]; ring
  | 1 => simp only [V3.get]; ring
  | _ + 2 => simp only [V3.get]; ring

/-- Three points of the triangle on one plane of the grid span no area. -/
theorem flat {δ : K} (hc : ClearOfGrid c n δ p1 p2 p3) {d i : Nat} (hd : d < 3) (hi : i ≤ n d) {p q r : V3 K} (hp : InTriangle p1 p2 p3 p) (hq : InTriangle p1 p2 p3 q)
    (hr : InTriangle p1 p2 p3 r) (ep : p.get d = c d i) (eq : q.get d = c d i) (er : r.get d = c d i) : triangleArea2 p q r = ⟨0, 0, 0⟩ := by
  obtain ⟨k, hk⟩ := area_multiple hp hq hr
  rw [hk]
  by_cases k0 : k = 0
  · rw [k0]; simp
  have hn := hc.notIn d hd i hi
  have d2 : (p2.x - p1.x) * (triangleArea2 p1 p2 p3).x + (p2.y - p1.y) * (triangleArea2 p1 p2 p3).y + (p2.z - p1.z) * (triangleArea2 p1 p2 p3).z = 0 := by
    unfold triangleArea2; ring
  have d3 : (p3.x - p1.x) * (triangleArea2 p1 p2 p3).x + (p3.y - p1.y) * (triangleArea2 p1 p2 p3).y + (p3.z - p1.z) * (triangleArea2 p1 p2 p3).z = 0 := by
    unfold triangleArea2; ring
  obtain ⟨u, v, w, -, -, -, hs, hx, hy, hz⟩ := hp
  have e0 := congrArg V3.x hk
  have e1 := congrArg V3.y hk
  have e2 := congrArg V3.z hk
  generalize triangleArea2 p1 p2 p3 = A at *
  have hw : w = 1 - u - v := by linarith
  have same : ∀ {P1 P2 P3 P a : K}, a ≠ 0 → (P2 - P1) * a = 0 → (P3 - P1) * a = 0 → P = u * P1 + v * P2 + w * P3 → P1 = P ∧ P2 = P ∧ P3 = P := by
    intro P1 P2 P3 P a ha h2 h3 hP
    have g2 : P2 = P1 := by rcases mul_eq_zero.1 h2 with h | h; linarith; exact absurd h ha
    have g3 : P3 = P1 := by rcases mul_eq_zero.1 h3 with h | h; linarith; exact absurd h ha
    subst g2 g3
    have : P = P3 := by rw [hP, hw]; ring
    exact ⟨this.symm, this.symm, this.symm⟩
  match d, hd with
  | 0, _ =>
    simp only [V3.get] at ep eq er hn
    simp only [triangleArea2, ep, eq, er, sub_self, mul_zero, zero_mul] at e1 e2
    have a1 : A.y = 0 := by rcases mul_eq_zero.1 e1.symm with h | h; exact absurd h k0; exact h
    have a2 : A.z = 0 := by rcases mul_eq_zero.1 e2.symm with h | h; exact absurd h k0; exact h
    rw [a1, a2] at d2 d3
    by_cases a0 : A.x = 0
    · rw [a0, a1, a2]; simp
    · have := same a0 (by linarith) (by linarith) hx
      rw [ep] at this
      exact absurd this hn
  | 1, _ =>
    simp only [V3.get] at ep eq er hn
    simp only [triangleArea2, ep, eq, er, sub_self, mul_zero, zero_mul] at e0 e2
    have a1 : A.x = 0 := by rcases mul_eq_zero.1 e0.symm with h | h; exact absurd h k0; exact h
    have a2 : A.z = 0 := by rcases mul_eq_zero.1 e2.symm with h | h; exact absurd h k0; exact h
    rw [a1, a2] at d2 d3
    by_cases a0 : A.y = 0
    · rw [a0, a1, a2]; simp
    · have := same a0 (by linarith) (by linarith) hy
      rw [ep] at this
      exact absurd this hn
  | 2, _ =>
    simp only [V3.get] at ep eq er hn
    simp only [triangleArea2, ep, eq, er, sub_self, mul_zero, zero_mul] at e0 e1
    have a1 : A.x = 0 := by rcases mul_eq_zero.1 e0.symm with h | h; exact absurd h k0; exact h
    have a2 : A.y = 0 := by rcases mul_eq_zero.1 e1.symm with h | h; exact absurd h k0; exact h
    rw [a1, a2] at d2 d3
    by_cases a0 : A.z = 0
    · rw [a0, a1, a2]; simp
    · have := same a0 (by linarith) (by linarith) hz
      rw [ep] at this
      exact absurd this hn

theorem straight {δ : K} (hc : ClearOfGrid c n δ p1 p2 p3) {pl : Plane K} (hp : Of c n pl) (e : Nat) : Straight pl (crossOf e) (InTriangle p1 p2 p3) := by
  obtain ⟨d, hd, i, hi, e1, e2⟩ := hp
  intro p q r ⟨hp, hp'⟩ ⟨hq, hq'⟩ ⟨hr, hr'⟩
  rw [dist_zero, e1, e2] at hp hq hr
  have := crossOf_tri e p q r
  rw [flat hc hd hi hp' hq' hr' hp hq hr] at this
  have h0 : (⟨0, 0, 0⟩ : V3 K).get e = 0 := by
    match e with
    | 0 => rfl
    | 1 => rfl
    | _ + 2 => rfl
  rw [h0, (crossOf_edge e).swap p r] at this
  linarith

theorem fits {zt δ : K} (hδ : 10 * zt ≤ δ) (hc : ClearOfGrid c n δ p1 p2 p3) {pl : Plane K} (hp : Of c n pl) {g : V3 K → V3 K → K} {l : List (Vtx K)}
    (h : Good c n p1 p2 p3 l) : Fits zt pl g (InTriangle p1 p2 p3) l :=
  ⟨fun v hv => (h.node v hv).1, fun v hv h1 h2 => sharp_of_node hδ hc hp (h.node v hv) (by linarith) (by linarith)⟩

/-! ## The cells of one direction -/

/-- The lower and the upper plane. -/
def lowPlane (d : Nat) (x : K) : Plane K := ⟨2 * d, x⟩

/-- The lower and the upper plane. -/
def upPlane (d : Nat) (x : K) : Plane K := ⟨2 * d + 1, x⟩

theorem dist_low (d : Nat) (x : K) (p : V3 K) : dist (lowPlane d x) p = x - p.get d := by
  unfold dist lowPlane
  have h1 : 2 * d % 2 = 0 := by omega
  have h2 : 2 * d / 2 = d := by omega
  simp only [h1, h2, if_true]

theorem dist_up (d : Nat) (x : K) (p : V3 K) : dist (upPlane d x) p = p.get d - x := by
  unfold dist upPlane
  have h1 : ¬ (2 * d + 1) % 2 = 0 := by omega
  have h2 : (2 * d + 1) / 2 = d := by omega
  simp only [h1, h2, if_false]

theorem flip_low (d : Nat) (x : K) : Flip (lowPlane d x) (upPlane d x) := by
  intro p; rw [dist_low, dist_up]; ring

theorem flip_up (d : Nat) (x : K) : Flip (upPlane d x) (lowPlane d x) := by
  intro p; rw [dist_low, dist_up]; ring

theorem of_low {d i : Nat} (hd : d < 3) (hi : i ≤ n d) : Of c n (lowPlane d (c d i)) := ⟨d, hd, i, hi, by unfold lowPlane; show 2 * d / 2 = d; omega, rfl⟩

theorem of_up {d i : Nat} (hd : d < 3) (hi : i ≤ n d) : Of c n (upPlane d (c d i)) := ⟨d, hd, i, hi, by unfold upPlane; show (2 * d + 1) / 2 = d; omega, rfl⟩

/-- The part of a polygon between two planes. -/
def slab (zt : K) (c : Nat → Nat → K) (d i : Nat) (l : List (Vtx K)) : List (Vtx K) :=
  cut zt (upPlane d (c d (i + 1))) (cut zt (lowPlane d (c d i)) l)

theorem good_slab {zt δ : K} (hz : 0 ≤ zt) (hδ : 10 * zt ≤ δ) (hc : ClearOfGrid c n δ p1 p2 p3) {d i : Nat} (hd : d < 3) (hi : i < n d) {l : List (Vtx K)}
    (h : Good c n p1 p2 p3 l) : Good c n p1 p2 p3 (slab zt c d i l) :=
  good_cut hz hδ hc (of_up hd hi) (good_cut hz hδ hc (of_low hd hi.le) h)

theorem loopSum_nil (g : V3 K → V3 K → K) : loopSum g [] = 0 := by simp [loopSum, cyclicPairs]

/-- A polygon in front of a plane is removed. -/
theorem cut_front {zt : K} (hz : 0 ≤ zt) {pl : Plane K} {l : List (Vtx K)} (h : ∀ v ∈ l, 0 ≤ dist pl v.pt) : cut zt pl l = [] := by
  refine clip_none _ fun v hv => ?_
  have := h v hv
  simp only [behind, decide_eq_false_iff_not, not_lt]
  linarith

theorem inside_of_triangle {δ : K} (hc : ClearOfGrid c n δ p1 p2 p3) {d : Nat} (hd : d < 3) {q : V3 K} (hq : InTriangle p1 p2 p3 q) : c d 0 ≤ q.get d ∧ q.get d ≤ c d (n d) := by
  obtain ⟨u, v, w, hu, hv, hw, h1, hx, hy, hz⟩ := hq
  obtain ⟨⟨a1, a2⟩, ⟨b1, b2⟩, c1, c2⟩ := hc.inside d hd
  have e : q.get d = u * p1.get d + v * p2.get d + w * p3.get d := by
    match d, hd with
    | 0, _ => exact hx
    | 1, _ => exact hy
    | 2, _ => exact hz
  rw [e]
  exact ⟨(GQ.comb_mem hu hv hw h1).1 a1 b1 c1, (GQ.comb_mem hu hv hw h1).2 a2 b2 c2⟩

/-- The slabs of one direction make up the polygon. -/
theorem slabs_sum {zt δ : K} (hz : 0 ≤ zt) (hδ : 10 * zt ≤ δ) (hc : ClearOfGrid c n δ p1 p2 p3) {d : Nat} (hd : d < 3) (hw : ∀ i < n d, c d i + 20 * zt < c d (i + 1))
    (e : Nat) {l : List (Vtx K)} (h : Good c n p1 p2 p3 l) :
    ((List.range (n d)).map fun i => loopSum (crossOf e) (slab zt c d i l)).sum = loopSum (crossOf e) l := by
  have hH : ∀ (a b : V3 K) (t : K), 0 ≤ t → t ≤ 1 → InTriangle p1 p2 p3 a → InTriangle p1 p2 p3 b → InTriangle p1 p2 p3 (lerp a b t) := fun a b t h0 h1 => inTriangle_lerp h0 h1
  have step : ∀ i < n d, loopSum (crossOf e) (slab zt c d i l) =
      loopSum (crossOf e) (cut zt (lowPlane d (c d i)) l) - loopSum (crossOf e) (cut zt (lowPlane d (c d (i + 1))) l) := by
    intro i hi
    have g1 := good_cut hz hδ hc (of_low hd hi.le) h
    have h1 := loopSum_divide hz (flip_up d (c d (i + 1))) (crossOf_edge e) hH (straight hc (of_up hd hi) e) (fits hδ hc (of_up hd hi) g1)
    have hdeep : Deeper (c d (i + 1) - c d i) (lowPlane d (c d i)) (lowPlane d (c d (i + 1))) := by
      intro p; rw [dist_low, dist_low]; ring
    have h2 := loopSum_deeper hz (by have := hw i hi; linarith) hdeep (crossOf_edge e) hH (straight hc (of_low hd hi) e) (fits hδ hc (of_low hd hi.le) h)
      (fits hδ hc (of_low hd hi) h) (fits hδ hc (of_low hd hi) g1)
    rw [h2] at h1
    unfold slab
    linarith
  have tele : ∀ m ≤ n d, ((List.range m).map fun i => loopSum (crossOf e) (slab zt c d i l)).sum =
      loopSum (crossOf e) (cut zt (lowPlane d (c d 0)) l) - loopSum (crossOf e) (cut zt (lowPlane d (c d m)) l) := by
    intro m
    induction m with
    | zero => intro _; simp
    | succ m ih =>
      intro hm
      rw [List.range_succ, List.map_append, List.sum_append, ih (by omega)]
      simp only [List.map_cons, List.map_nil, List.sum_cons, List.sum_nil]
      rw [step m (by omega)]
      ring
  rw [tele _ le_rfl]
  have last : cut zt (lowPlane d (c d (n d))) l = [] := cut_front hz fun v hv => by
    rw [dist_low]; have := (inside_of_triangle hc hd (h.node v hv).1).2; linarith
  have first : cut zt (upPlane d (c d 0)) l = [] := cut_front hz fun v hv => by
    rw [dist_up]; have := (inside_of_triangle hc hd (h.node v hv).1).1; linarith
  have h1 := loopSum_divide hz (flip_low d (c d 0)) (crossOf_edge e) hH (straight hc (of_low hd (Nat.zero_le _)) e) (fits hδ hc (of_low hd (Nat.zero_le _)) h)
  rw [first, loopSum_nil] at h1
  rw [last, loopSum_nil]
  linarith

/-- The part of a triangle in a cell. -/
def part (zt : K) (c : Nat → Nat → K) (p1 p2 p3 : V3 K) (i : V3 Nat) : List (Vtx K) :=
  slab zt c 2 i.z (slab zt c 1 i.y (slab zt c 0 i.x [bare p1, bare p2, bare p3]))

/-- The parts of a triangle in all cells make up the triangle. -/
theorem parts_sum {zt δ : K} (hz : 0 ≤ zt) (hδ : 10 * zt ≤ δ) (hc : ClearOfGrid c n δ p1 p2 p3) (hw : ∀ d < 3, ∀ i < n d, c d i + 20 * zt < c d (i + 1)) (e : Nat) :
    ((gridCells n).map fun i => loopSum (crossOf e) (part zt c p1 p2 p3 i)).sum = (triangleArea2 p1 p2 p3).get e := by
  have sum_flat : ∀ {α β : Type} (f : β → K) (g : α → List β) (l : List α), ((l.flatMap g).map f).sum = (l.map fun a => ((g a).map f).sum).sum := by
    intro α β f g l
    induction l with
    | nil => rfl
    | cons a l ih => simp [List.flatMap_cons, ih]
  unfold gridCells
  rw [sum_flat]
  have h0 : Good c n p1 p2 p3 [bare p1, bare p2, bare p3] := good_start
  have : ∀ i ∈ List.range (n 0), (((List.range (n 1)).flatMap fun j => (List.range (n 2)).map fun k => (⟨i, j, k⟩ : V3 Nat)).map fun i => loopSum (crossOf e) (part zt c p1 p2 p3 i)).sum =
      loopSum (crossOf e) (slab zt c 0 i [bare p1, bare p2, bare p3]) := by
    intro i hi
    have g0 := good_slab hz hδ hc (by omega) (List.mem_range.1 hi) h0
    rw [sum_flat, ← slabs_sum hz hδ hc (d := 1) (by omega) (hw 1 (by omega)) e g0]
    congr 1
    refine List.map_congr_left fun j hj => ?_
    have g1 := good_slab hz hδ hc (d := 1) (by omega) (List.mem_range.1 hj) g0
    rw [← slabs_sum hz hδ hc (d := 2) (by omega) (hw 2 (by omega)) e g1, List.map_map]
    rfl
  rw [List.map_congr_left this, slabs_sum hz hδ hc (d := 0) (by omega) (hw 0 (by omega)) e h0, ← crossOf_tri]
  have : cyclicPairs [bare p1, bare p2, bare p3] = [(bare p1, bare p2), (bare p2, bare p3), (bare p3, bare p1)] := rfl
  unfold loopSum
  rw [this]
  simp only [List.map_cons, List.map_nil, List.sum_cons, List.sum_nil, bare]
  ring

end Grid

end QuESo.Clip
