import Verif.Proofs.SplineCheck

/-! # Rules on several spans: segments -/
namespace QuESo.Rules
open Polynomial QuESo.Spec

/-- The pieces of a spline in the coordinates of their spans; `n` coefficients agree at every knot. -/
structure Pieces (p n : ℕ) (s : ℕ → ℝ[X]) : Prop where
  deg : ∀ k, (s k).natDegree ≤ p
  glue : ∀ k, ∀ j < n, (taylor 1 (s k)).coeff j = (s (k + 1)).coeff j

/-- The rule `pts` on the spans `a ≤ k < b` integrates splines, up to the terms `l`, `l'` at the two ends. -/
def SegOK (p n S : ℕ) (ε : ℝ) (a b : ℕ) (pts : Rule) (l l' : List Int) : Prop :=
  a ≤ b ∧ ∀ (s : ℕ → ℝ[X]) (F : ℝ → ℝ) (M : ℝ), Pieces p n s →
    (∀ k, a ≤ k → k < b → ∀ x ∈ Set.Icc (0 : ℝ) 1, |(s k).eval x| ≤ M) →
    (∀ k, a ≤ k → k < b → ∀ t ∈ Set.Icc (0 : ℝ) 1, F (k + t) = (s k).eval t) →
    |quadSum pts F - ∑ k ∈ Finset.Ico a b, intL (s k) - (dotL S l' (s b) - dotL S l (s a))| ≤ ε * ((b : ℝ) - a) * M

theorem quadSum_append (a b : Rule) (F : ℝ → ℝ) : quadSum (a ++ b) F = quadSum a F + quadSum b F := by
  simp [quadSum]

theorem SegOK.append {p n S : ℕ} {ε : ℝ} {a b c : ℕ} {x y : Rule} {l1 l2 l3 : List Int}
    (h1 : SegOK p n S ε a b x l1 l2) (h2 : SegOK p n S ε b c y l2 l3) : SegOK p n S ε a c (x ++ y) l1 l3 := by
  refine ⟨h1.1.trans h2.1, fun s F M hs hM hF => ?_⟩
  have e1 := h1.2 s F M hs (fun k ha hb => hM k ha (lt_of_lt_of_le hb h2.1)) (fun k ha hb => hF k ha (lt_of_lt_of_le hb h2.1))
  have e2 := h2.2 s F M hs (fun k ha hb => hM k (h1.1.trans ha) hb) (fun k ha hb => hF k (h1.1.trans ha) hb)
  rw [quadSum_append, ← Finset.sum_Ico_consecutive _ h1.1 h2.1]
  have h3 := (abs_add_le _ _).trans (add_le_add e1 e2)
  refine le_trans (le_of_eq ?_) (h3.trans (le_of_eq ?_))
  · congr 1; ring
  · ring

theorem SegOK.nil {p n S : ℕ} {ε : ℝ} (a : ℕ) (l : List Int) : SegOK p n S ε a a [] l l := by
  refine ⟨le_refl _, fun s F M _ _ _ => ?_⟩
  simp [quadSum]

theorem quadSum_shift (d : ℚ) (l : Rule) (F : ℝ → ℝ) : quadSum (shift d l) F = quadSum l (fun x => F (x + d)) := by
  simp [quadSum, shift, Function.comp_def]

theorem SegOK.shift {p n S : ℕ} {ε : ℝ} {a b : ℕ} {x : Rule} {l l' : List Int} (h : SegOK p n S ε a b x l l') (c : ℕ) :
    SegOK p n S ε (a + c) (b + c) (Rules.shift (c : ℚ) x) l l' := by
  refine ⟨by have := h.1; omega, fun s F M hs hM hF => ?_⟩
  have e := h.2 (fun k => s (k + c)) (fun x => F (x + c)) M
    ⟨fun k => hs.deg _, fun k j hj => by rw [hs.glue _ j hj]; congr 2; ring⟩
    (fun k ha hb => hM (k + c) (by omega) (by omega))
    (fun k ha hb t ht => by
      have := hF (k + c) (by omega) (by omega) t ht
      rw [← this]; congr 1; push_cast; ring)
  rw [quadSum_shift]
  rw [← Finset.sum_Ico_add' (fun k => intL (s k)) a b c]
  refine le_trans (le_of_eq ?_) (e.trans (le_of_eq ?_))
  · congr 1
  · push_cast; ring

/-- repetition with period `right` -/
def reps (x : Rule) (right : ℕ) : ℕ → Rule
  | 0 => []
  | j + 1 => reps x right j ++ Rules.shift ((right * j : ℕ) : ℚ) x

theorem SegOK.reps {p n S : ℕ} {ε : ℝ} {right : ℕ} {x : Rule} {l : List Int} (h : SegOK p n S ε 0 right x l l) (j : ℕ) :
    SegOK p n S ε 0 (right * j) (Rules.reps x right j) l l := by
  induction j with
  | zero => simpa [Rules.reps] using SegOK.nil 0 l
  | succ j ih =>
    have := ih.append (c := right * (j + 1)) (y := Rules.shift ((right * j : ℕ) : ℚ) x) (l3 := l)
      (by have h2 := h.shift (right * j); rwa [zero_add, show right + right * j = right * (j + 1) by ring] at h2)
    exact this

/-- local coordinates of span `k` -/
def localPts (S k : Nat) (pts : List (Int × Int)) : List (Int × Int) := pts.map fun q => (q.1 - (k : Int) * S, q.2)

/-- The check of a segment that starts at span `k`; every span with the number of its points and the term at its right
end. -/
def checkSeg (L : Lagrange) (S : Nat) (num den : Int) (n : Nat) :
    List (Nat × List Int) → Nat → List (Int × Int) → List Int → List Int → Bool
  | [], _, pts, l, lend => pts.isEmpty && decide (l = lend)
  | (c, l') :: rest, k, pts, l, lend =>
    (localPts S k (pts.take c)).all (fun q => decide (0 ≤ q.1) && decide (q.1 ≤ S)) && decide (l'.length ≤ n) &&
      checkSpan L S num den (localPts S k (pts.take c)) l l' && checkSeg L S num den n rest (k + 1) (pts.drop c) l' lend

theorem quadSum_ofTable_local {S : Nat} (hS : 0 < S) (k : Nat) (pts : List (Int × Int))
    (hr : ∀ q ∈ localPts S k pts, 0 ≤ q.1 ∧ q.1 ≤ S) (g : ℝ[X]) (F : ℝ → ℝ)
    (hF : ∀ t ∈ Set.Icc (0 : ℝ) 1, F (k + t) = g.eval t) :
    quadSum (ofTable S pts) F = sumL (S : ℝ) (localPts S k pts) g := by
  have hSr : (0 : ℝ) < S := by exact_mod_cast hS
  rw [sumL_apply]
  induction pts with
  | nil => simp [quadSum, ofTable, localPts]
  | cons q t ih =>
    have h1 := hr (q.1 - (k : Int) * S, q.2) (by simp [localPts])
    have ih := ih (fun q hq => hr q (by simp only [localPts, List.map_cons, List.mem_cons] at hq ⊢; exact Or.inr hq))
    simp only [quadSum, ofTable, localPts, List.map_cons, List.sum_cons, List.map_map] at ih ⊢
    rw [ih]
    congr 1
    have h2 : ((q.1 - (k : Int) * S : Int) : ℝ) / S ∈ Set.Icc (0 : ℝ) 1 := by
      constructor
      · apply div_nonneg _ hSr.le; exact_mod_cast h1.1
      · rw [div_le_one hSr]; exact_mod_cast h1.2
    have h3 := hF _ h2
    push_cast
    push_cast at h3
    rw [← h3]
    congr 2
    field_simp
    ring

theorem checkSeg_sound (L : Lagrange) (hL : L.ok = true) (S : Nat) (hS : 0 < S) (num den : Int) (hd : 0 < den) (n : Nat) :
    ∀ (sp : List (Nat × List Int)) (k : Nat) (pts : List (Int × Int)) (l lend : List Int),
      checkSeg L S num den n sp k pts l lend = true →
      SegOK L.p n S ((num : ℝ) / den) k (k + sp.length) (ofTable S pts) l lend
  | [], k, pts, l, lend, h => by
    simp only [checkSeg, Bool.and_eq_true, List.isEmpty_iff, decide_eq_true_eq] at h
    rw [h.1, h.2]; exact SegOK.nil k lend
  | (c, l') :: rest, k, pts, l, lend, h => by
    simp only [checkSeg, Bool.and_eq_true, List.all_eq_true, decide_eq_true_eq] at h
    obtain ⟨⟨⟨h1, h2⟩, h3⟩, h4⟩ := h
    have ih := checkSeg_sound L hL S hS num den hd n rest (k + 1) (pts.drop c) l' lend h4
    have h5 : SegOK L.p n S ((num : ℝ) / den) k (k + 1) (ofTable S (pts.take c)) l l' := by
      refine ⟨by omega, fun s F M hs hM hF => ?_⟩
      have e := checkSpan_sound L hL S num den (by exact_mod_cast hS) hd (localPts S k (pts.take c)) l l' h3 (s k) (hs.deg k) M
        (hM k (le_refl _) (by omega))
      rw [quadSum_ofTable_local hS k (pts.take c) h1 (s k) F (hF k (le_refl _) (by omega))]
      rw [rho, LinearMap.sub_apply, LinearMap.sub_apply, LinearMap.sub_apply, LinearMap.comp_apply] at e
      have h6 : dotL (S : ℝ) l' (taylor 1 (s k)) = dotL (S : ℝ) l' (s (k + 1)) := by
        rw [dotL_apply, dotL_apply]
        refine Finset.sum_congr rfl fun j hj => ?_
        rw [hs.glue k j (lt_of_lt_of_le (Finset.mem_range.mp hj) h2)]
      simp only [Int.cast_natCast] at e
      rw [h6] at e
      simp only [Nat.Ico_succ_singleton, Finset.sum_singleton]
      refine e.trans (le_of_eq ?_)
      push_cast; ring
    have h7 := h5.append ih
    rw [show ofTable S (pts.take c) ++ ofTable S (pts.drop c) = ofTable S pts by
      simp only [ofTable, ← List.map_append, List.take_append_drop]] at h7
    rw [show k + 1 + rest.length = k + ((c, l') :: rest).length by simp; omega] at h7
    exact h7

end QuESo.Rules
