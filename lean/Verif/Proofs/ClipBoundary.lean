import Verif.Spec.ClipBoundary
import Verif.Proofs.ClipperBox
import Verif.Proofs.ClipperMesh
import Verif.Proofs.BRepClip

/-! # The boundary of a clipped surface -/
namespace QuESo.Clip
open QuESo.Cyc QuESo.Spec QuESo.IO
variable {K : Type} [Field K] [LinearOrder K] [IsStrictOrderedRing K]

/-! ## One polygon and one plane -/

/-- The consecutive pairs of `s :: l`. -/
def pairs {α : Type _} : α → List α → List (α × α)
  | _, [] => []
  | s, b :: l => (s, b) :: pairs b l

theorem pairs_append {α : Type _} (s : α) (l r : List α) : pairs s (l ++ r) = pairs s l ++ pairs (lastD s l) r := by
  induction l generalizing s with
  | nil => rfl
  | cons b l ih => simp only [List.cons_append, pairs, ih, lastD]

theorem zip_pairs {α : Type _} (a c : α) (l : List α) : (a :: l).zip (l ++ [c]) = pairs a l ++ [(lastD a l, c)] := by
  induction l generalizing a with
  | nil => rfl
  | cons b l ih => simp only [List.cons_append, List.zip_cons_cons, pairs, lastD]; rw [← ih]

/-- The edges of a closed polygon start with any of them. -/
theorem cyclicPairs_perm {α : Type _} (b : α) (l : List α) : (cyclicPairs (b :: l)).Perm (pairs (lastD b l) (b :: l)) := by
  rw [cyclicPairs_cons, zip_pairs, pairs]
  exact List.perm_append_comm

/-- No plane contains both ends. -/
def opn (e : Vtx K × Vtx K) : Bool := (List.range 6).all fun j => !(e.1.on j && e.2.on j)

theorem opn_iff {e : Vtx K × Vtx K} : opn e = true ↔ ∀ j < 6, ¬ (e.1.on j = true ∧ e.2.on j = true) := by
  simp only [opn, List.all_eq_true, List.mem_range, Bool.not_eq_true', ← Bool.not_eq_true, Bool.and_eq_true]

/-- What remains of an edge. -/
def piece (zt : K) (pl : Plane K) (e : Vtx K × Vtx K) : List (Vtx K × Vtx K) :=
  if behind zt pl e.1 then (if behind zt pl e.2 then [e] else [(e.1, entry zt pl e.1 e.2)])
  else (if behind zt pl e.2 then [(exit zt pl e.1 e.2, e.2)] else [])

theorem entry_on (zt : K) (pl : Plane K) (a b : Vtx K) : (entry zt pl a b).on pl.index = true := by
  unfold entry mid; split <;> simp [Vtx.set]

theorem exit_on (zt : K) (pl : Plane K) (a b : Vtx K) : (exit zt pl a b).on pl.index = true := by
  unfold exit mid; split <;> simp [Vtx.set]

theorem opn_piece {zt : K} {pl : Plane K} {e : Vtx K × Vtx K} (h1 : ∀ j, pl.index ≤ j → e.1.on j = false)
    (h2 : ∀ j, pl.index ≤ j → e.2.on j = false) : ∀ q ∈ piece zt pl e, opn q = opn e := by
  have hx : ∀ a b : Vtx K, ∀ j, j < pl.index → (mid pl a b).on j = (a.on j && b.on j) := by
    intro a b j hj
    simp [mid, Vtx.set, hj, Nat.ne_of_lt hj]
  intro q hq
  unfold piece at hq
  have key : ∀ q : Vtx K × Vtx K, (∀ j, pl.index ≤ j → ¬ (q.1.on j = true ∧ q.2.on j = true)) →
      (∀ j, j < pl.index → ((q.1.on j = true ∧ q.2.on j = true) ↔ (e.1.on j = true ∧ e.2.on j = true))) → opn q = opn e := by
    intro q k1 k2
    rw [Bool.eq_iff_iff, opn_iff, opn_iff]
    constructor
    · intro h j hj hc
      by_cases hlt : j < pl.index
      · exact h j hj ((k2 j hlt).2 hc)
      · rw [h1 j (by omega)] at hc; simp at hc
    · intro h j hj hc
      by_cases hlt : j < pl.index
      · exact h j hj ((k2 j hlt).1 hc)
      · exact k1 j (by omega) hc
  split_ifs at hq
  · simp only [List.mem_singleton] at hq; rw [hq]
  · simp only [List.mem_singleton] at hq
    subst hq
    refine key _ (fun j hj hc => by rw [h1 j hj] at hc; simp at hc) fun j hj => ?_
    dsimp only
    unfold entry
    split
    · simp [Vtx.set, Nat.ne_of_lt hj]
    · rw [hx _ _ _ hj]; simp
  · simp only [List.mem_singleton] at hq
    subst hq
    refine key _ (fun j hj hc => by rw [h2 j hj] at hc; simp at hc) fun j hj => ?_
    dsimp only
    unfold exit
    split
    · simp [Vtx.set, Nat.ne_of_lt hj]
    · rw [hx _ _ _ hj]; simp
  · simp at hq

/-- The last emitted vertex `s` when the loop is at `a`. -/
def Last (zt : K) (pl : Plane K) (a s : Vtx K) : Prop :=
  (behind zt pl a = true → s = a) ∧ (behind zt pl a = false → s.on pl.index = true)

theorem emits_open {zt : K} {pl : Plane K} (hk : pl.index < 6) (a s : Vtx K) (r : List (Vtx K)) (hs : Last zt pl a s)
    (ha : ∀ j, pl.index ≤ j → a.on j = false) (hr : ∀ v ∈ r, ∀ j, pl.index ≤ j → v.on j = false) :
    (pairs s (emits (behind zt pl) (entry zt pl) (exit zt pl) a r)).filter opn = ((pairs a r).filter opn).flatMap (piece zt pl) ∧
    Last zt pl (lastD a r) (lastD s (emits (behind zt pl) (entry zt pl) (exit zt pl) a r)) := by
  induction r generalizing a s with
  | nil => exact ⟨rfl, hs⟩
  | cons b r ih =>
    have hb := hr b (by simp)
    have hr' : ∀ v ∈ r, ∀ j, pl.index ≤ j → v.on j = false := fun v hv => hr v (by simp [hv])
    rw [emits, pairs_append, lastD_append, pairs, List.filter_append]
    have key : (pairs s (edge (behind zt pl) (entry zt pl) (exit zt pl) a b)).filter opn =
        (if opn (a, b) then piece zt pl (a, b) else []) ∧
        Last zt pl b (lastD s (edge (behind zt pl) (entry zt pl) (exit zt pl) a b)) := by
      have hop := opn_piece (zt := zt) (e := (a, b)) ha hb
      unfold edge
      unfold piece at hop ⊢
      cases hA : behind zt pl a <;> cases hB : behind zt pl b <;> simp only [hA, hB, if_true, if_false, Bool.false_eq_true] at hop ⊢
      · refine ⟨by simp [pairs], fun h => (by rw [hB] at h; cases h), fun _ => hs.2 hA⟩
      · refine ⟨?_, fun _ => rfl, fun h => (by rw [hB] at h; cases h)⟩
        have h0 : opn (s, exit zt pl a b) = false := by
          rw [Bool.eq_false_iff, ne_eq, opn_iff]
          exact fun h => h _ hk ⟨hs.2 hA, exit_on ..⟩
        have h1 := hop _ (List.mem_singleton.2 rfl)
        simp only [pairs, List.filter_cons, h0, h1, List.filter_nil]
        simp
      · refine ⟨?_, fun h => (by rw [hB] at h; cases h), fun _ => entry_on ..⟩
        have h1 := hop _ (List.mem_singleton.2 rfl)
        rw [hs.1 hA]
        simp only [pairs, List.filter_cons, h1, List.filter_nil]
      · refine ⟨?_, fun _ => rfl, fun h => (by rw [hB] at h; cases h)⟩
        rw [hs.1 hA]
        simp only [pairs, List.filter_cons, List.filter_nil]
    obtain ⟨k1, k2⟩ := key
    obtain ⟨i1, i2⟩ := ih b _ k2 hb hr'
    refine ⟨?_, i2⟩
    rw [k1, i1, List.filter_cons]
    split <;> simp [List.flatMap_cons]

/-- The open edges of the clipped polygon are what remains of the open edges of the polygon. -/
theorem cut_open {zt : K} {pl : Plane K} (hk : pl.index < 6) (l : List (Vtx K)) (hl : ∀ v ∈ l, ∀ j, pl.index ≤ j → v.on j = false) :
    ((cyclicPairs (cut zt pl l)).filter opn).Perm (((cyclicPairs l).filter opn).flatMap (piece zt pl)) := by
  cases l with
  | nil => exact List.Perm.refl _
  | cons b l =>
    have ha : ∀ j, pl.index ≤ j → (lastD b l).on j = false := by
      rcases lastD_mem b l with e | e
      · rw [e]; exact hl b (by simp)
      · exact hl _ (by simp [e])
    set a := lastD b l with hadef
    have hlast : lastD a (b :: l) = a := rfl
    have step := fun s hs => emits_open (zt := zt) hk a s (b :: l) hs ha hl
    obtain ⟨s0, hs0⟩ : ∃ s, Last zt pl a s := by
      cases hA : behind zt pl a
      · exact ⟨a.set pl.index, And.intro (fun h => (by rw [hA] at h; cases h)) (fun _ => by simp [Vtx.set])⟩
      · exact ⟨a, And.intro (fun _ => rfl) (fun h => (by rw [hA] at h; cases h))⟩
    obtain ⟨h1, h2⟩ := step s0 hs0
    rw [hlast] at h2
    refine List.Perm.trans ?_ (((cyclicPairs_perm b l).filter opn).flatMap_right (piece zt pl)).symm
    rw [← hadef]
    change ((cyclicPairs (emits (behind zt pl) (entry zt pl) (exit zt pl) a (b :: l))).filter opn).Perm _
    cases hE : emits (behind zt pl) (entry zt pl) (exit zt pl) a (b :: l) with
    | nil =>
      rw [hE] at h1
      rw [← h1]
      exact List.Perm.refl _
    | cons c E =>
      rw [hE] at h2
      have h3 := (step _ h2).1
      rw [hE] at h3
      rw [← h3]
      exact (cyclicPairs_perm c E).filter opn

/-! ## The edges of a triangle -/

/-- The two points of an edge. -/
def pts (e : Vtx K × Vtx K) : V3 K × V3 K := (e.1.pt, e.2.pt)

theorem behind_bare {zt : K} {pl : Plane K} {p : V3 K} : behind zt pl (bare p) = true ↔ dist pl p < -(10 * zt) := decide_eq_true_iff

theorem entry_bare (zt : K) (pl : Plane K) (a b : V3 K) :
    (entry zt pl (bare a) (bare b)).pt = if dist pl b ≤ 10 * zt then b else lerp a b (param pl a b) := by
  unfold entry mid
  by_cases h : dist pl b ≤ 10 * zt
  · rw [if_pos h, if_pos (show dist pl (bare b).pt ≤ 10 * zt from h)]; rfl
  · rw [if_neg h, if_neg (show ¬ dist pl (bare b).pt ≤ 10 * zt from h)]; rfl

theorem exit_bare (zt : K) (pl : Plane K) (a b : V3 K) :
    (exit zt pl (bare a) (bare b)).pt = if dist pl a ≤ 10 * zt then a else lerp a b (param pl a b) := by
  unfold exit mid
  by_cases h : dist pl a ≤ 10 * zt
  · rw [if_pos h, if_pos (show dist pl (bare a).pt ≤ 10 * zt from h)]; rfl
  · rw [if_neg h, if_neg (show ¬ dist pl (bare a).pt ≤ 10 * zt from h)]; rfl

/-- What a plane leaves of an edge. -/
def seg (zt : K) (pl : Plane K) (e : V3 K × V3 K) : List (V3 K × V3 K) := (piece zt pl (bare e.1, bare e.2)).map pts

theorem piece_pts (zt : K) (pl : Plane K) (e : Vtx K × Vtx K) : (piece zt pl e).map pts = seg zt pl (pts e) := by
  have h1 : ∀ a b : Vtx K, (entry zt pl a b).pt = (entry zt pl (bare a.pt) (bare b.pt)).pt := by
    intro a b
    unfold entry mid
    by_cases h : dist pl b.pt ≤ 10 * zt
    · rw [if_pos h, if_pos (show dist pl (bare b.pt).pt ≤ 10 * zt from h)]; rfl
    · rw [if_neg h, if_neg (show ¬ dist pl (bare b.pt).pt ≤ 10 * zt from h)]; rfl
  have h2 : ∀ a b : Vtx K, (exit zt pl a b).pt = (exit zt pl (bare a.pt) (bare b.pt)).pt := by
    intro a b
    unfold exit mid
    by_cases h : dist pl a.pt ≤ 10 * zt
    · rw [if_pos h, if_pos (show dist pl (bare a.pt).pt ≤ 10 * zt from h)]; rfl
    · rw [if_neg h, if_neg (show ¬ dist pl (bare a.pt).pt ≤ 10 * zt from h)]; rfl
  have h3 : ∀ a : Vtx K, behind zt pl (bare a.pt) = behind zt pl a := fun a => rfl
  unfold seg piece
  simp only [pts, h3]
  split_ifs
  · rfl
  · simp only [List.map_cons, List.map_nil, pts, h1 e.1 e.2]; rfl
  · simp only [List.map_cons, List.map_nil, pts, h2 e.1 e.2]; rfl
  · rfl

omit [LinearOrder K] [IsStrictOrderedRing K] in
theorem lerp_swap {pl : Plane K} {a b : V3 K} (h : dist pl a - dist pl b ≠ 0) : lerp a b (param pl a b) = lerp b a (param pl b a) := by
  have h' : dist pl b - dist pl a ≠ 0 := fun e => h (by linear_combination -e)
  have e : param pl b a = 1 - param pl a b := by
    unfold param
    field_simp
    ring
  rw [e]
  unfold lerp
  ext <;> simp only <;> ring

theorem seg_swap {zt : K} (hz : 0 ≤ zt) (pl : Plane K) (e : V3 K × V3 K) : seg zt pl e.swap = (seg zt pl e).map Prod.swap := by
  obtain ⟨a, b⟩ := e
  have hx : ∀ a b, behind zt pl (bare a) = true → (entry zt pl (bare a) (bare b)).pt = (exit zt pl (bare b) (bare a)).pt := by
    intro a b ha
    rw [behind_bare] at ha
    rw [entry_bare, exit_bare]
    split_ifs with h
    · rfl
    · exact lerp_swap (pl := pl) (by intro e; linarith)
  unfold seg piece
  simp only [Prod.swap]
  cases hA : behind zt pl (bare a) <;> cases hB : behind zt pl (bare b) <;> simp [pts]
  · exact hx _ _ hB
  · exact (hx _ _ hA).symm

/-- What the first `k` planes leave of an edge. -/
def segs (zt : K) (lo up : V3 K) : Nat → V3 K × V3 K → List (V3 K × V3 K)
  | 0, e => [e]
  | k + 1, e => (segs zt lo up k e).flatMap (seg zt (plane lo up k))

theorem segs_swap {zt : K} (hz : 0 ≤ zt) (lo up : V3 K) (k : Nat) (e : V3 K × V3 K) :
    segs zt lo up k e.swap = (segs zt lo up k e).map Prod.swap := by
  induction k with
  | zero => rfl
  | succ k ih =>
    simp only [segs, ih, List.flatMap_map, List.map_flatMap]
    exact congrArg (List.flatMap · _) (funext fun e => seg_swap hz _ e)

theorem seg_forall {zt : K} (hz : 0 ≤ zt) {pl : Plane K} {e : V3 K × V3 K} {P : V3 K → Prop}
    (hP : ∀ a b t, 0 ≤ t → t ≤ 1 → P a → P b → P (lerp a b t)) (h1 : P e.1) (h2 : P e.2) :
    ∀ q ∈ seg zt pl e, P q.1 ∧ P q.2 := by
  obtain ⟨a, b⟩ := e
  dsimp only at h1 h2
  have hb : ∀ p, behind zt pl (bare p) = true → dist pl p < -(10 * zt) := fun p h => behind_bare.1 h
  intro q hq
  unfold seg piece at hq
  dsimp only at hq
  split_ifs at hq with c1 c2 c2
  · simp only [List.map_cons, List.map_nil, List.mem_singleton] at hq; subst hq; exact ⟨h1, h2⟩
  · simp only [List.map_cons, List.map_nil, List.mem_singleton] at hq
    subst hq
    refine ⟨h1, ?_⟩
    simp only [pts, entry_bare]
    split
    · exact h2
    · rename_i h
      have hp := param_mem (pl := pl) (a := a) (b := b) (Or.inr ⟨by linarith [hb _ c1], by linarith⟩)
      exact hP _ _ _ hp.1 hp.2 h1 h2
  · simp only [List.map_cons, List.map_nil, List.mem_singleton] at hq
    subst hq
    refine ⟨?_, h2⟩
    simp only [pts, exit_bare]
    split
    · exact h1
    · rename_i h
      have hp := param_mem (pl := pl) (a := a) (b := b) (Or.inl ⟨by linarith, by linarith [hb _ c2]⟩)
      exact hP _ _ _ hp.1 hp.2 h1 h2
  · simp at hq

theorem segs_forall {zt : K} (hz : 0 ≤ zt) (lo up : V3 K) (k : Nat) {e : V3 K × V3 K} {P : V3 K → Prop}
    (hP : ∀ a b t, 0 ≤ t → t ≤ 1 → P a → P b → P (lerp a b t)) (h1 : P e.1) (h2 : P e.2) :
    ∀ q ∈ segs zt lo up k e, P q.1 ∧ P q.2 := by
  induction k with
  | zero => intro q hq; simp only [segs, List.mem_singleton] at hq; subst hq; exact ⟨h1, h2⟩
  | succ k ih =>
    intro q hq
    simp only [segs, List.mem_flatMap] at hq
    obtain ⟨q', hq', hq⟩ := hq
    exact seg_forall hz hP (ih q' hq').1 (ih q' hq').2 q hq

theorem seg_dist {zt : K} (hz : 0 ≤ zt) {pl : Plane K} {e : V3 K × V3 K} :
    ∀ q ∈ seg zt pl e, dist pl q.1 ≤ 10 * zt ∧ dist pl q.2 ≤ 10 * zt := by
  obtain ⟨a, b⟩ := e
  have hb : ∀ p, behind zt pl (bare p) = true → dist pl p < -(10 * zt) := fun p h => behind_bare.1 h
  intro q hq
  unfold seg piece at hq
  dsimp only at hq
  split_ifs at hq with c1 c2 c2
  · simp only [List.map_cons, List.map_nil, List.mem_singleton] at hq; subst hq
    have := hb _ c1; have := hb _ c2
    simp only [pts, bare]; constructor <;> linarith
  · simp only [List.map_cons, List.map_nil, List.mem_singleton] at hq
    subst hq
    refine ⟨by have := hb _ c1; simp only [pts, bare]; linarith, ?_⟩
    simp only [pts, entry_bare]
    split
    · rename_i h; exact h
    · rename_i h
      have := dist_cut (pl := pl) (a := a) (b := b) (Or.inr ⟨by linarith [hb _ c1], by linarith⟩)
      rw [this]; linarith
  · simp only [List.map_cons, List.map_nil, List.mem_singleton] at hq
    subst hq
    refine ⟨?_, by have := hb _ c2; simp only [pts, bare]; linarith⟩
    simp only [pts, exit_bare]
    split
    · rename_i h; exact h
    · rename_i h
      have := dist_cut (pl := pl) (a := a) (b := b) (Or.inl ⟨by linarith, by linarith [hb _ c2]⟩)
      rw [this]; linarith
  · simp at hq

omit [LinearOrder K] [IsStrictOrderedRing K] in
theorem dist_le_lerp [LinearOrder K] [IsStrictOrderedRing K] (pl : Plane K) (c : K) (a b : V3 K) (t : K) (h0 : 0 ≤ t) (h1 : t ≤ 1) (ha : dist pl a ≤ c) (hb : dist pl b ≤ c) :
    dist pl (lerp a b t) ≤ c := by
  rw [dist_lerp]; exact (convex_combination h0 h1).2.1 ha hb

omit [LinearOrder K] [IsStrictOrderedRing K] in
theorem le_dist_lerp [LinearOrder K] [IsStrictOrderedRing K] (pl : Plane K) (c : K) (a b : V3 K) (t : K) (h0 : 0 ≤ t) (h1 : t ≤ 1) (ha : c ≤ dist pl a) (hb : c ≤ dist pl b) :
    c ≤ dist pl (lerp a b t) := by
  rw [dist_lerp]; exact (convex_combination h0 h1).1 ha hb

theorem segs_dist {zt : K} (hz : 0 ≤ zt) (lo up : V3 K) (k : Nat) (e : V3 K × V3 K) :
    ∀ q ∈ segs zt lo up k e, ∀ j < k, dist (plane lo up j) q.1 ≤ 10 * zt ∧ dist (plane lo up j) q.2 ≤ 10 * zt := by
  induction k with
  | zero => intro q hq j hj; omega
  | succ k ih =>
    intro q hq j hj
    simp only [segs, List.mem_flatMap] at hq
    obtain ⟨q', hq', hq⟩ := hq
    by_cases hjk : j = k
    · subst hjk; exact seg_dist hz q hq
    · obtain ⟨a, b⟩ := ih q' hq' j (by omega)
      exact seg_forall hz (P := fun p => dist (plane lo up j) p ≤ 10 * zt) (dist_le_lerp _ _) a b q hq

/-- Nothing is left of an edge that is nowhere behind one of the planes. -/
theorem segs_nil {zt : K} (hz : 0 ≤ zt) (lo up : V3 K) {k j : Nat} (hj : j < k) {e : V3 K × V3 K}
    (h1 : -(10 * zt) ≤ dist (plane lo up j) e.1) (h2 : -(10 * zt) ≤ dist (plane lo up j) e.2) : segs zt lo up k e = [] := by
  induction k with
  | zero => omega
  | succ k ih =>
    by_cases hjk : j = k
    · subst hjk
      rw [segs, List.flatMap_eq_nil_iff]
      intro q hq
      obtain ⟨a, b⟩ := segs_forall hz lo up j (P := fun p => -(10 * zt) ≤ dist (plane lo up j) p) (le_dist_lerp _ _) h1 h2 q hq
      unfold seg piece
      have e1 : behind zt (plane lo up j) (bare q.1) = false := by rw [Bool.eq_false_iff, ne_eq, behind_bare]; linarith
      have e2 : behind zt (plane lo up j) (bare q.2) = false := by rw [Bool.eq_false_iff, ne_eq, behind_bare]; linarith
      simp [e1, e2]
    · rw [segs, ih (by omega)]; rfl

/-- The open edges of a polygon after some planes. -/
theorem stages_open {zt : K} (hz : 0 ≤ zt) {lo up mn mx : V3 K} {es : List (V3 K × V3 K)} {k : Nat} (hk : k < 6) {l : List (Vtx K)}
    (hinv : Inv zt lo up k l) (hact : Active lo up mn mx k)
    (h : (((cyclicPairs l).filter opn).map pts).Perm (es.flatMap (segs zt lo up k))) :
    (((cyclicPairs (stage zt lo up mn mx k l)).filter opn).map pts).Perm (es.flatMap (segs zt lo up (k + 1))) := by
  rw [stage_active hact]
  have h1 := (cut_open (zt := zt) (pl := plane lo up k) hk l hinv.fresh).map pts
  refine h1.trans ?_
  rw [List.map_flatMap]
  have e : (fun e => (piece zt (plane lo up k) e).map pts) = fun e : Vtx K × Vtx K => seg zt (plane lo up k) (pts e) :=
    funext fun e => piece_pts _ _ e
  rw [e, ← List.flatMap_map pts (seg zt (plane lo up k))]
  refine (h.flatMap_right _).trans ?_
  rw [List.flatMap_assoc]
  exact List.Perm.refl _

/-- The open edges of a clipped triangle are what the six planes leave of its edges. -/
theorem final_open {zt : K} (hz : 0 ≤ zt) {p1 p2 p3 lo up : V3 K} (ho : ∀ k < 6, Active lo up (triMin p1 p2 p3) (triMax p1 p2 p3) k) :
    (((cyclicPairs (final zt lo up p1 p2 p3)).filter opn).map pts).Perm ([(p1, p2), (p2, p3), (p3, p1)].flatMap (segs zt lo up 6)) := by
  have hs := fun k (l : List (Vtx K)) (h : Inv zt lo up k l) => inv_stage hz (triMin p1 p2 p3) (triMax p1 p2 p3) h
  have h0 := inv_start zt lo up p1 p2 p3
  have h1 := hs _ _ h0
  have h2 := hs _ _ h1
  have h3 := hs _ _ h2
  have h4 := hs _ _ h3
  have h5 := hs _ _ h4
  have g0 : (((cyclicPairs [bare p1, bare p2, bare p3]).filter opn).map pts).Perm ([(p1, p2), (p2, p3), (p3, p1)].flatMap (segs zt lo up 0)) := by
    have e : ∀ a b : V3 K, opn (bare a, bare b) = true := fun a b => by rw [opn_iff]; intro j _; simp [bare]
    have : cyclicPairs [bare p1, bare p2, bare p3] = [(bare p1, bare p2), (bare p2, bare p3), (bare p3, bare p1)] := rfl
    rw [this]
    simp only [List.filter_cons, e, if_true, List.filter_nil, List.map_cons, List.map_nil]
    exact List.Perm.refl _
  have g1 := stages_open hz (by omega) h0 (ho 0 (by omega)) g0
  have g2 := stages_open hz (by omega) h1 (ho 1 (by omega)) g1
  have g3 := stages_open hz (by omega) h2 (ho 2 (by omega)) g2
  have g4 := stages_open hz (by omega) h3 (ho 3 (by omega)) g3
  have g5 := stages_open hz (by omega) h4 (ho 4 (by omega)) g4
  have g6 := stages_open hz (by omega) h5 (ho 5 (by omega)) g5
  exact g6

/-! ## Adding a polygon to a mesh -/

/-- The unrecorded edges of one triangle. -/
def looseAt (m : ClippedMesh K) (i : Nat) : List (V3 K × V3 K) :=
  ((indexEdgesAt m.mesh i).filter fun e => ¬ Recorded m i e.1 e.2).flatMap (endPoints m.mesh)

/-- The edges belong to triangles of the mesh. -/
def EdgesIn (m : ClippedMesh K) : Prop := ∀ k, ∀ e ∈ m.edges k, e.2.2 < m.mesh.triangles.length

omit [Field K] [LinearOrder K] [IsStrictOrderedRing K] in
theorem flatMap_congr' {α β : Type _} {l : List α} {f g : α → List β} (h : ∀ a ∈ l, f a = g a) : l.flatMap f = l.flatMap g := by
  induction l with
  | nil => rfl
  | cons a l ih => rw [List.flatMap_cons, List.flatMap_cons, h a (by simp), ih fun b hb => h b (by simp [hb])]

omit [LinearOrder K] [IsStrictOrderedRing K] in
/-- Adding one triangle with some of its edges. -/
theorem loose_addTri {m m' : ClippedMesh K} (hc : m.mesh.check = true) (hb : EdgesIn m) {a b c n : V3 K} (hm : m'.mesh = (m.addTri a b c n).mesh)
    {es : Nat → List (Nat × Nat × Nat)} (he : ∀ k, m'.edges k = m.edges k ++ es k) (hes : ∀ k, ∀ e ∈ es k, e.2.2 = m.mesh.triangles.length) :
    EdgesIn m' ∧ looseEdges m' = looseEdges m ++
      (([((m.mesh.vertices.length, m.mesh.vertices.length + 1), (a, b)), ((m.mesh.vertices.length + 1, m.mesh.vertices.length + 2), (b, c)),
        ((m.mesh.vertices.length + 2, m.mesh.vertices.length), (c, a))] : List ((Nat × Nat) × (V3 K × V3 K))).filter fun x =>
          ¬ ∃ k ∈ List.range 6, (x.1.1, x.1.2, m.mesh.triangles.length) ∈ es k).map Prod.snd := by
  rw [addTri_mesh] at hm
  have hv : m'.mesh.vertices = m.mesh.vertices ++ [a, b, c] := by rw [hm]
  have ht : m'.mesh.triangles = m.mesh.triangles ++ [⟨m.mesh.vertices.length, m.mesh.vertices.length + 1, m.mesh.vertices.length + 2⟩] := by rw [hm]
  have hrec : ∀ i x y, i < m.mesh.triangles.length → (Recorded m' i x y ↔ Recorded m i x y) := by
    intro i x y hi
    unfold Recorded
    constructor
    · rintro ⟨k, hk, h⟩
      rw [he, List.mem_append] at h
      rcases h with h | h
      · exact ⟨k, hk, h⟩
      · have := hes k _ h
        dsimp only at this
        omega
    · rintro ⟨k, hk, h⟩
      exact ⟨k, hk, by rw [he]; exact List.mem_append_left _ h⟩
  have hrec' : ∀ x y, Recorded m' m.mesh.triangles.length x y ↔ ∃ k ∈ List.range 6, (x, y, m.mesh.triangles.length) ∈ es k := by
    intro x y
    unfold Recorded
    constructor
    · rintro ⟨k, hk, h⟩
      rw [he, List.mem_append] at h
      rcases h with h | h
      · have := hb k _ h
        dsimp only at this
        omega
      · exact ⟨k, List.mem_range.2 hk, h⟩
    · rintro ⟨k, hk, h⟩
      exact ⟨k, List.mem_range.1 hk, by rw [he]; exact List.mem_append_right _ h⟩
  refine ⟨fun k e h => ?_, ?_⟩
  · rw [he, List.mem_append] at h
    rw [ht, List.length_append]
    rcases h with h | h
    · have := hb k e h; omega
    · rw [hes k e h]; simp
  · have h1 : ∀ i ∈ List.range m.mesh.triangles.length, looseAt m' i = looseAt m i := by
      intro i hi
      rw [List.mem_range] at hi
      have e1 : indexEdgesAt m'.mesh i = indexEdgesAt m.mesh i := by
        unfold indexEdgesAt
        rw [ht, List.getElem?_append_left hi]
      unfold looseAt
      rw [e1]
      have e2 : (indexEdgesAt m.mesh i).filter (fun e => ¬ Recorded m' i e.1 e.2) = (indexEdgesAt m.mesh i).filter (fun e => ¬ Recorded m i e.1 e.2) := by
        refine List.filter_congr fun e _ => ?_
        simp only [decide_not, Bool.not_eq_eq_eq_not, Bool.not_not, decide_eq_decide]
        exact hrec i _ _ hi
      rw [e2]
      refine flatMap_congr' fun e hmem => ?_
      have hmem := (List.mem_filter.1 hmem).1
      have hin : e.1 < m.mesh.vertices.length ∧ e.2 < m.mesh.vertices.length := by
        unfold indexEdgesAt at hmem
        rw [List.getElem?_eq_getElem hi] at hmem
        obtain ⟨t1, t2, t3⟩ := (check_iff.1 hc).2 _ (List.getElem_mem hi)
        simp only [List.mem_cons, List.not_mem_nil, or_false] at hmem
        rcases hmem with rfl | rfl | rfl
        · exact ⟨t1, t2⟩
        · exact ⟨t2, t3⟩
        · exact ⟨t3, t1⟩
      unfold endPoints
      rw [hv, List.getElem?_append_left hin.1, List.getElem?_append_left hin.2]
    have h2 : looseAt m' m.mesh.triangles.length = (([((m.mesh.vertices.length, m.mesh.vertices.length + 1), (a, b)), ((m.mesh.vertices.length + 1, m.mesh.vertices.length + 2), (b, c)),
        ((m.mesh.vertices.length + 2, m.mesh.vertices.length), (c, a))] : List ((Nat × Nat) × (V3 K × V3 K))).filter fun x =>
          ¬ ∃ k ∈ List.range 6, (x.1.1, x.1.2, m.mesh.triangles.length) ∈ es k).map Prod.snd := by
      have v0 : m'.mesh.vertices[m.mesh.vertices.length]? = some a := by rw [hv]; simp
      have v1 : m'.mesh.vertices[m.mesh.vertices.length + 1]? = some b := by rw [hv]; simp
      have v2 : m'.mesh.vertices[m.mesh.vertices.length + 2]? = some c := by rw [hv]; simp
      have t0 : m'.mesh.triangles[m.mesh.triangles.length]? = some ⟨m.mesh.vertices.length, m.mesh.vertices.length + 1, m.mesh.vertices.length + 2⟩ := by rw [ht]; simp
      unfold looseAt indexEdgesAt
      rw [t0]
      simp only [List.filter_cons, List.filter_nil, hrec']
      have p1 : endPoints m'.mesh (m.mesh.vertices.length, m.mesh.vertices.length + 1) = [(a, b)] := by simp only [endPoints, v0, v1]
      have p2 : endPoints m'.mesh (m.mesh.vertices.length + 1, m.mesh.vertices.length + 2) = [(b, c)] := by simp only [endPoints, v1, v2]
      have p3 : endPoints m'.mesh (m.mesh.vertices.length + 2, m.mesh.vertices.length) = [(c, a)] := by simp only [endPoints, v2, v0]
      split_ifs <;> simp [List.flatMap_cons, p1, p2, p3]
    change (List.range m'.mesh.triangles.length).flatMap (looseAt m') = (List.range m.mesh.triangles.length).flatMap (looseAt m) ++ _
    rw [ht, List.length_append, List.length_singleton, List.range_succ, List.flatMap_append, flatMap_congr' h1]
    simp only [List.flatMap_cons, List.flatMap_nil, List.append_nil, h2]

theorem opn_false {e : Vtx K × Vtx K} : ¬ opn e = true ↔ ∃ k < 6, e.1.on k = true ∧ e.2.on k = true := by
  rw [opn_iff]; push Not; rfl

/-- Adding one triangle of a fan. -/
theorem loose_addFan {m : ClippedMesh K} (hc : m.mesh.check = true) (hb : EdgesIn m) (c n : V3 K) (a b : Vtx K) :
    EdgesIn (addFan c n a b m) ∧ looseEdges (addFan c n a b m) =
      looseEdges m ++ (([(a, b)].filter opn).map pts ++ [(b.pt, c), (c, a.pt)]) := by
  obtain ⟨h1, h2⟩ := edgesOfPair_spec a b m.mesh.vertices.length m.mesh.triangles.length (m.addTri a.pt b.pt c n)
  have h3 := loose_addTri (m' := addFan c n a b m) hc hb (a := a.pt) (b := b.pt) (c := c) (n := n) h1 h2 (by
    intro k e he
    split_ifs at he
    · simp only [List.mem_singleton] at he; rw [he]
    · simp at he)
  refine ⟨h3.1, ?_⟩
  rw [h3.2]
  congr 1
  have key : ∀ x y : Nat, (∃ k ∈ List.range 6, (x, y, m.mesh.triangles.length) ∈
      (if k < 6 ∧ a.on k = true ∧ b.on k = true then [(m.mesh.vertices.length, m.mesh.vertices.length + 1, m.mesh.triangles.length)] else [])) ↔
      (x = m.mesh.vertices.length ∧ y = m.mesh.vertices.length + 1) ∧ ¬ opn (a, b) = true := by
    intro x y
    rw [opn_false]
    constructor
    · rintro ⟨k, hk, h⟩
      split_ifs at h with hh
      · simp only [List.mem_singleton, Prod.mk.injEq] at h
        exact ⟨⟨h.1, h.2.1⟩, k, hh⟩
      · simp at h
    · rintro ⟨⟨rfl, rfl⟩, k, hk, h⟩
      refine ⟨k, List.mem_range.2 hk, ?_⟩
      rw [if_pos ⟨hk, h⟩]
      simp
  simp only [List.filter_cons, List.filter_nil, key]
  by_cases ho : opn (a, b) = true
  · simp [ho, pts]
  · simp [ho]

theorem loose_fanLoop {m : ClippedMesh K} (hc : m.mesh.check = true) (hb : EdgesIn m) (c n : V3 K) (first a : Vtx K) (l : List (Vtx K)) :
    EdgesIn (fanLoop c n first (a :: l) m) ∧ (looseEdges (fanLoop c n first (a :: l) m)).Perm
      (looseEdges m ++ ((((a :: l).zip (l ++ [first])).filter opn).map pts ++ ((a :: l).zip (l ++ [first])).flatMap fun e => [(e.2.pt, c), (c, e.1.pt)])) := by
  induction l generalizing m a with
  | nil =>
    obtain ⟨h1, h2⟩ := loose_addFan hc hb c n a first
    refine ⟨h1, ?_⟩
    have e : fanLoop c n first [a] m = addFan c n a first m := rfl
    rw [e, h2]
    exact List.Perm.refl _
  | cons b l ih =>
    obtain ⟨h1, h2⟩ := loose_addFan hc hb c n a b
    have e : fanLoop c n first (a :: b :: l) m = fanLoop c n first (b :: l) (addFan c n a b m) := rfl
    obtain ⟨i1, i2⟩ := ih (addFan_added hc c n a b).check h1 b
    rw [e]
    refine ⟨i1, i2.trans ?_⟩
    rw [h2, zip_next, List.append_assoc]
    refine List.Perm.append_left _ ?_
    generalize (b :: l).zip (l ++ [first]) = z
    have e1 : ((a, b) :: z).filter opn = [(a, b)].filter opn ++ z.filter opn := by rw [← List.filter_append]; rfl
    rw [e1, List.map_append, List.flatMap_cons]
    simp only [List.append_assoc]
    refine List.Perm.append_left _ ?_
    rw [← List.append_assoc, ← List.append_assoc]
    exact List.Perm.append_right _ List.perm_append_comm

omit [Field K] [LinearOrder K] [IsStrictOrderedRing K] in
theorem cyclicPairs_fst {α : Type _} (l : List α) : (cyclicPairs l).map Prod.fst = l := by
  unfold cyclicPairs
  rw [List.map_fst_zip (by simp)]

omit [Field K] [LinearOrder K] [IsStrictOrderedRing K] in
theorem cyclicPairs_snd {α : Type _} (l : List α) : (cyclicPairs l).map Prod.snd = l.rotate 1 := by
  unfold cyclicPairs
  rw [List.map_snd_zip (by simp)]

omit [Field K] [LinearOrder K] [IsStrictOrderedRing K] in
theorem bothWays_append {F G : List (V3 K × V3 K)} (h1 : BothWays F) (h2 : BothWays G) : BothWays (F ++ G) := by
  unfold BothWays
  rw [List.map_append]
  exact h1.append h2

omit [Field K] [LinearOrder K] [IsStrictOrderedRing K] in
theorem bothWays_perm {F G : List (V3 K × V3 K)} (h : F.Perm G) (hG : BothWays G) : BothWays F :=
  (h.trans hG).trans (h.map _).symm

omit [Field K] [LinearOrder K] [IsStrictOrderedRing K] in
/-- The spokes of a fan. -/
theorem bothWays_spokes (c : V3 K) (p : List (Vtx K)) : BothWays ((cyclicPairs p).flatMap fun e => [(e.2.pt, c), (c, e.1.pt)]) := by
  have h1 : ∀ l : List (Vtx K × Vtx K), (l.flatMap fun e => [(e.2.pt, c), (c, e.1.pt)]).Perm
      ((l.map Prod.snd).map (fun v => (v.pt, c)) ++ (l.map Prod.fst).map (fun v => (c, v.pt))) := by
    intro l
    induction l with
    | nil => exact List.Perm.refl _
    | cons e l ih =>
      rw [List.flatMap_cons]
      simp only [List.map_cons, List.cons_append, List.nil_append]
      refine List.Perm.cons _ ?_
      exact (List.Perm.cons _ ih).trans List.perm_middle.symm
  have h2 : ((cyclicPairs p).flatMap fun e => [(e.2.pt, c), (c, e.1.pt)]).Perm (p.map (fun v => (v.pt, c)) ++ p.map (fun v => (c, v.pt))) := by
    refine (h1 _).trans ?_
    rw [cyclicPairs_fst, cyclicPairs_snd]
    exact List.Perm.append_right _ ((List.rotate_perm p 1).map _)
  refine bothWays_perm h2 ?_
  unfold BothWays
  rw [List.map_append, List.map_map, List.map_map]
  exact List.perm_append_comm

/-- Adding a polygon adds its open edges, and edges in both directions. -/
theorem loose_addToMesh {m m' : ClippedMesh K} (hc : m.mesh.check = true) (hb : EdgesIn m) (p : List (Vtx K)) (hp : p.length = 0 ∨ 3 ≤ p.length) (n : V3 K)
    (hm' : addToMesh p n m = some m') : m'.mesh.check = true ∧ EdgesIn m' ∧ ∃ F, BothWays F ∧
      (looseEdges m').Perm (looseEdges m ++ (((cyclicPairs p).filter opn).map pts ++ F)) := by
  match p, hp with
  | [], _ =>
    rw [addToMesh_small [] (by simp)] at hm'
    cases hm'
    exact ⟨hc, hb, [], List.Perm.refl _, by simp [cyclicPairs]⟩
  | [_], hp => simp at hp
  | [_, _], hp => simp at hp
  | [a, b, c], _ =>
    refine ⟨(addToMesh_added hc _ (by simp) n hm').check, ?_⟩
    obtain ⟨hnone, hsome⟩ := edgesOfTriangle_spec a b c m.mesh.vertices.length m.mesh.triangles.length (m.addTri a.pt b.pt c.pt n)
    obtain ⟨h1, h2⟩ := hsome m' hm'
    have hnot : ∀ k, k < 6 → ¬ (a.on k = true ∧ b.on k = true ∧ c.on k = true) := by
      intro k hk hc
      have := hnone.2 ⟨k, hk, hc⟩
      have hm'' : edgesOfTriangle a b c m.mesh.vertices.length m.mesh.triangles.length (m.addTri a.pt b.pt c.pt n) = some m' := hm'
      rw [hm''] at this
      simp at this
    have h3 := loose_addTri (m' := m') hc hb (a := a.pt) (b := b.pt) (c := c.pt) (n := n) h1 h2 (by
      intro k e he
      split_ifs at he
      all_goals simp only [List.mem_singleton, List.not_mem_nil] at he
      all_goals rw [he])
    refine ⟨h3.1, [], List.Perm.refl _, ?_⟩
    rw [h3.2, List.append_nil]
    refine List.Perm.append_left _ ?_
    have hcp : cyclicPairs [a, b, c] = [(a, b), (b, c), (c, a)] := rfl
    have key : ∀ x y : Nat, (∃ k ∈ List.range 6, (x, y, m.mesh.triangles.length) ∈
        (if k < 6 ∧ a.on k = true ∧ b.on k = true then [(m.mesh.vertices.length, m.mesh.vertices.length + 1, m.mesh.triangles.length)]
         else if k < 6 ∧ b.on k = true ∧ c.on k = true then [(m.mesh.vertices.length + 1, m.mesh.vertices.length + 2, m.mesh.triangles.length)]
         else if k < 6 ∧ c.on k = true ∧ a.on k = true then [(m.mesh.vertices.length + 2, m.mesh.vertices.length, m.mesh.triangles.length)] else [])) ↔
        ((x = m.mesh.vertices.length ∧ y = m.mesh.vertices.length + 1) ∧ ¬ opn (a, b) = true) ∨
        ((x = m.mesh.vertices.length + 1 ∧ y = m.mesh.vertices.length + 2) ∧ ¬ opn (b, c) = true) ∨
        ((x = m.mesh.vertices.length + 2 ∧ y = m.mesh.vertices.length) ∧ ¬ opn (c, a) = true) := by
      intro x y
      rw [opn_false, opn_false, opn_false]
      constructor
      · rintro ⟨k, hk, h⟩
        split_ifs at h with g1 g2 g3
        · simp only [List.mem_singleton, Prod.mk.injEq] at h
          exact Or.inl ⟨⟨h.1, h.2.1⟩, k, g1⟩
        · simp only [List.mem_singleton, Prod.mk.injEq] at h
          exact Or.inr (Or.inl ⟨⟨h.1, h.2.1⟩, k, g2⟩)
        · simp only [List.mem_singleton, Prod.mk.injEq] at h
          exact Or.inr (Or.inr ⟨⟨h.1, h.2.1⟩, k, g3⟩)
        · simp at h
      · rintro (⟨⟨rfl, rfl⟩, k, hk, h⟩ | ⟨⟨rfl, rfl⟩, k, hk, h⟩ | ⟨⟨rfl, rfl⟩, k, hk, h⟩)
        · refine ⟨k, List.mem_range.2 hk, ?_⟩
          rw [if_pos ⟨hk, h⟩]; simp
        · refine ⟨k, List.mem_range.2 hk, ?_⟩
          rw [if_neg (fun g => hnot k hk ⟨g.2.1, h⟩), if_pos ⟨hk, h⟩]; simp
        · refine ⟨k, List.mem_range.2 hk, ?_⟩
          rw [if_neg (fun g => hnot k hk ⟨g.2.1, g.2.2, h.1⟩), if_neg (fun g => hnot k hk ⟨h.2, g.2⟩), if_pos ⟨hk, h⟩]; simp
    rw [hcp]
    simp only [List.filter_cons, List.filter_nil, key]
    have e1 : opn (a, b) = true ∨ opn (a, b) = false := by cases opn (a, b) <;> simp
    have e2 : opn (b, c) = true ∨ opn (b, c) = false := by cases opn (b, c) <;> simp
    have e3 : opn (c, a) = true ∨ opn (c, a) = false := by cases opn (c, a) <;> simp
    rcases e1 with e1 | e1 <;> rcases e2 with e2 | e2 <;> rcases e3 with e3 | e3 <;> simp [e1, e2, e3, pts]
  | a :: b :: c :: d :: l, _ =>
    refine ⟨(addToMesh_added hc _ (by simp) n hm').check, ?_⟩
    have e : m' = fanLoop (centroid (a :: b :: c :: d :: l)) n a (a :: b :: c :: d :: l) m := by
      simp only [addToMesh, Option.some.injEq] at hm'
      exact hm'.symm
    obtain ⟨h1, h2⟩ := loose_fanLoop hc hb (centroid (a :: b :: c :: d :: l)) n a a (b :: c :: d :: l)
    rw [← cyclicPairs_cons] at h2
    rw [e]
    exact ⟨h1, _, bothWays_spokes _ _, h2⟩

end QuESo.Clip

namespace QuESo.BRep
open QuESo.Clip QuESo.Spec QuESo.IO
variable {K : Type} [Field K] [LinearOrder K] [IsStrictOrderedRing K]

/-- What the planes leave of the edges of the triangle `i`. -/
def segsAt (zt : K) (m : Mesh K) (lo up : V3 K) (i : Nat) : List (V3 K × V3 K) :=
  match m.triangle i with
  | some s => (edgesOf s).flatMap (segs zt lo up 6)
  | none => []

theorem aligned_segs {zt : K} (hz : 0 ≤ zt) {p1 p2 p3 lo up : V3 K} (h : aligned zt p1 p2 p3 lo up = true) :
    [(p1, p2), (p2, p3), (p3, p1)].flatMap (segs zt lo up 6) = [] := by
  unfold aligned at h
  simp only [List.any_eq_true, List.mem_range, Bool.and_eq_true, decide_eq_true_eq, classify_on] at h
  obtain ⟨k, hk, ⟨⟨h1, -⟩, h2, -⟩, h3, -⟩ := h
  rw [List.flatMap_eq_nil_iff]
  intro e he
  simp only [List.mem_cons, List.not_mem_nil, or_false] at he
  rcases he with rfl | rfl | rfl
  · exact segs_nil hz lo up hk h1 h2
  · exact segs_nil hz lo up hk h2 h3
  · exact segs_nil hz lo up hk h3 h1

/-- The unrecorded edges of the clipped mesh. -/
theorem loose_clipLoop {zt : K} (hz : 0 ≤ zt) {m : Mesh K} (lo up : V3 K) : ∀ (ids : List Nat) (out out' : ClippedMesh K),
    (∀ i ∈ ids, ∀ s, m.triangle i = some s → BoundsOverlap s.p1 s.p2 s.p3 lo up) → out.mesh.check = true → EdgesIn out →
    clipLoop zt m lo up ids out = .ok out' → ∃ F, BothWays F ∧ (looseEdges out').Perm (looseEdges out ++ (ids.flatMap (segsAt zt m lo up) ++ F)) := by
  intro ids
  induction ids with
  | nil =>
    intro out out' _ _ _ hcl
    simp only [clipLoop] at hcl
    cases hcl
    exact ⟨[], List.Perm.refl _, by simp⟩
  | cons i rest ih =>
    intro out out' ho hc hb hcl
    rw [clipLoop] at hcl
    split at hcl
    · exact absurd hcl (by simp)
    rename_i s hs
    have hov := ho i (by simp) s hs
    have ho' : ∀ j ∈ rest, ∀ s, m.triangle j = some s → BoundsOverlap s.p1 s.p2 s.p3 lo up := fun j hj => ho j (by simp [hj])
    have hat : segsAt zt m lo up i = [(s.p1, s.p2), (s.p2, s.p3), (s.p3, s.p1)].flatMap (segs zt lo up 6) := by
      simp only [segsAt, hs]; rfl
    split at hcl
    · exact absurd hcl (by simp)
    · rename_i hn
      obtain ⟨F, f1, f2⟩ := ih out out' ho' hc hb hcl
      refine ⟨F, f1, ?_⟩
      rw [clipTriangle_eq hz] at hn
      split at hn
      · rename_i hal
        rw [List.flatMap_cons, hat, aligned_segs hz hal, List.nil_append]
        exact f2
      · simp at hn
    · rename_i p hp
      split at hcl
      · exact absurd hcl (by simp)
      rename_i o1 ho1
      have hpf := result_some hz hp
      have hlen := (inv_final hz s.p1 s.p2 s.p3 lo up).len
      rw [← hpf] at hlen
      obtain ⟨c1, c2, G, g1, g2⟩ := loose_addToMesh hc hb p (by omega) s.normal ho1
      obtain ⟨F, f1, f2⟩ := ih o1 out' ho' c1 c2 hcl
      refine ⟨G ++ F, bothWays_append g1 f1, f2.trans ?_⟩
      have hop := final_open hz (p1 := s.p1) (p2 := s.p2) (p3 := s.p3) (active_of_overlap hov)
      rw [← hpf, ← hat] at hop
      rw [List.flatMap_cons]
      refine (g2.append_right _).trans ?_
      simp only [List.append_assoc]
      refine List.Perm.append_left _ ?_
      refine List.Perm.append hop ?_
      rw [← List.append_assoc, ← List.append_assoc]
      exact List.Perm.append_right _ List.perm_append_comm

theorem bothWays_flatMap {es : List (V3 K × V3 K)} (h : BothWays es) {f : V3 K × V3 K → List (V3 K × V3 K)}
    (hf : ∀ e, f e.swap = (f e).map Prod.swap) : BothWays (es.flatMap f) := by
  unfold BothWays
  rw [List.map_flatMap]
  have e : (es.flatMap fun e => (f e).map Prod.swap) = (es.map Prod.swap).flatMap f := by
    rw [List.flatMap_map]
    exact flatMap_congr' fun e _ => (hf e).symm
  rw [e]
  exact h.flatMap_right f

/-- A triangle without points in the box leaves nothing. -/
theorem segs_outside {zt : K} (hz : 0 ≤ zt) {s : Tri K} {lo up : V3 K} (h : ∀ q, InTriangle s.p1 s.p2 s.p3 q → ¬ InBoxTol lo up (10 * zt) q) :
    (edgesOf s).flatMap (segs zt lo up 6) = [] := by
  rw [List.flatMap_eq_nil_iff]
  intro e he
  have c1 : InTriangle s.p1 s.p2 s.p3 s.p1 := ⟨1, 0, 0, by simp, by simp, by simp, by simp, by simp, by simp, by simp⟩
  have c2 : InTriangle s.p1 s.p2 s.p3 s.p2 := ⟨0, 1, 0, by simp, by simp, by simp, by simp, by simp, by simp, by simp⟩
  have c3 : InTriangle s.p1 s.p2 s.p3 s.p3 := ⟨0, 0, 1, by simp, by simp, by simp, by simp, by simp, by simp, by simp⟩
  have hin : InTriangle s.p1 s.p2 s.p3 e.1 ∧ InTriangle s.p1 s.p2 s.p3 e.2 := by
    simp only [edgesOf, List.mem_cons, List.not_mem_nil, or_false] at he
    rcases he with rfl | rfl | rfl
    · exact ⟨c1, c2⟩
    · exact ⟨c2, c3⟩
    · exact ⟨c3, c1⟩
  rw [List.eq_nil_iff_forall_not_mem]
  intro q hq
  have h1 := (segs_forall hz lo up 6 (fun a b t h0 h1 ha hb => inTriangle_lerp h0 h1 ha hb) hin.1 hin.2 q hq).1
  have hd := fun k hk => (segs_dist hz lo up 6 e q hq k hk).1
  have h0 := hd 0 (by omega)
  have h1' := hd 1 (by omega)
  have h2 := hd 2 (by omega)
  have h3 := hd 3 (by omega)
  have h4 := hd 4 (by omega)
  have h5 := hd 5 (by omega)
  simp [Clip.dist, plane, V3.get] at h0 h1' h2 h3 h4 h5
  exact h _ h1 ⟨⟨by linarith, by linarith⟩, ⟨by linarith, by linarith⟩, ⟨by linarith, by linarith⟩⟩

end QuESo.BRep

namespace QuESo.BRep
open QuESo.Clip QuESo.Spec QuESo.IO
variable {K : Type} [Field K] [LinearOrder K] [IsStrictOrderedRing K]

omit [Field K] [LinearOrder K] [IsStrictOrderedRing K] in
theorem visit_range {m : Mesh K} {ts : List (Tri K)} (hv : m.visit = some ts) {β : Type} (f : Tri K → List β) :
    ts.flatMap f = (List.range m.triangles.length).flatMap fun i => match m.triangle i with
      | some s => f s
      | none => [] := by
  have aux : ∀ (l : List Nat) (ts : List (Tri K)), l.mapM (m := Option) m.triangle = some ts → ts.flatMap f = l.flatMap fun i => match m.triangle i with
      | some s => f s
      | none => [] := by
    intro l
    induction l with
    | nil => intro ts h; simp at h; subst h; rfl
    | cons i l ih =>
      intro ts h
      rw [List.mapM_cons] at h
      cases ht : m.triangle i with
      | none => rw [ht] at h; simp at h
      | some s =>
        rw [ht] at h
        cases hl : l.mapM (m := Option) m.triangle with
        | none => rw [hl] at h; simp at h
        | some ts' =>
          rw [hl] at h
          simp at h
          subst h
          rw [List.flatMap_cons, List.flatMap_cons, ht, ih ts' hl]
  exact aux _ _ hv

/-- The clipped mesh of the listed triangles. -/
theorem loose_of_ids {zt tol : K} (hz : 0 ≤ zt) (ht : 0 < tol) {m : Mesh K} {ts : List (Tri K)} (hv : m.visit = some ts) (hcl : ClosedSurface ts)
    {lo up : V3 K} (hdec : ∀ t ∈ ts, Decided zt tol lo up t) {ids : List Nat} (hnd : ids.Nodup)
    (hids : ∀ i, i ∈ ids ↔ ∃ c, m.corners i = some c ∧ ∃ q, InTriangle c.x c.y c.z q ∧ InBoxTol lo up (-tol) q) {out : ClippedMesh K}
    (hout : clipLoop zt m lo up ids emptyClipped = .ok out) : BothWays (looseEdges out) := by
  obtain ⟨F, f1, f2⟩ := loose_clipLoop hz lo up ids emptyClipped out (by
    intro i hi s hs
    obtain ⟨c, hc, q, q1, q2⟩ := (hids i).1 hi
    rw [triangle_corners hs] at hc
    cases hc
    exact overlap_of_point ht q1 q2) (by rfl) (by intro k e he; simp [emptyClipped] at he) hout
  refine bothWays_perm f2 ?_
  refine bothWays_append (by exact List.Perm.refl _) (bothWays_append ?_ f1)
  have hp := perm_flatMap (segsAt zt m lo up) hnd (n := m.triangles.length) (fun i hi => by
    obtain ⟨c, hc, -⟩ := (hids i).1 hi; exact GQ.corners_lt hc)
  refine bothWays_perm hp ?_
  have e : ((List.range m.triangles.length).flatMap fun i => if i ∈ ids then segsAt zt m lo up i else []) =
      (ts.flatMap edgesOf).flatMap (segs zt lo up 6) := by
    rw [List.flatMap_assoc, visit_range hv]
    refine flatMap_congr' fun i hi => ?_
    unfold segsAt
    cases hs : m.triangle i with
    | none => simp
    | some s =>
      simp only
      split
      · rfl
      · rename_i hn
        have hmem : s ∈ ts := by
          obtain ⟨-, h2⟩ := mapM_range_some _ _ _ hv
          have := h2 i (List.mem_range.1 hi)
          rw [hs] at this
          exact List.mem_of_getElem? this.symm
        rcases hdec s hmem with ⟨q, q1, q2⟩ | h
        · exact absurd ((hids i).2 ⟨_, triangle_corners hs, q, q1, q2⟩) hn
        · exact (segs_outside hz h).symm
  rw [e]
  exact bothWays_flatMap hcl fun e => segs_swap hz lo up 6 e

end QuESo.BRep
