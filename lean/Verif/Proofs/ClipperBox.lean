import Verif.Proofs.Clipper

/-!
# Invariants over the six planes of a box
-/
namespace QuESo.Clip
open QuESo.Cyc QuESo.Spec
variable {K : Type _} [Field K] [LinearOrder K] [IsStrictOrderedRing K]

/-- The state of the polygon before the plane with index `k`. -/
structure Inv (zt : K) (lo up : V3 K) (k : Nat) (l : List (Vtx K)) : Prop where
  len : l.length = 0 ∨ (3 ≤ l.length ∧ l.length ≤ 3 + k)
  convex : ConvexPoly l
  fresh : ∀ v ∈ l, ∀ j, k ≤ j → v.on j = false
  truthful : ∀ v ∈ l, ∀ j, v.on j = true → -(10 * zt) ≤ dist (plane lo up j) v.pt ∧ dist (plane lo up j) v.pt ≤ 10 * zt
  arc : ∀ j < k, ∀ f : V3 K → Bool, ConvexLabel f → cyc (fun v => v.on j && f v.pt) l ≤ 2
  unflagged : ∀ j < k, l ≠ [] → ∃ v ∈ l, v.on j = false

theorem inv_start (zt : K) (lo up p1 p2 p3 : V3 K) : Inv zt lo up 0 [bare p1, bare p2, bare p3] where
  len := Or.inr ⟨by simp, by simp⟩
  convex := convexPoly_three _ _ _
  fresh := by intro v hv j _; simp at hv; rcases hv with rfl | rfl | rfl <;> rfl
  truthful := by intro v hv j h; simp at hv; rcases hv with rfl | rfl | rfl <;> simp [bare] at h
  arc := by intro j hj; omega
  unflagged := by intro j hj; omega

theorem cyc_false {α : Type _} {f : α → Bool} {l : List α} (h : ∀ v ∈ l, f v = false) : cyc f l = 0 := by
  cases l with
  | nil => rfl
  | cons b l =>
    refine chg_false _ _ _ ?_ h
    rcases lastD_mem b l with e | e
    · rw [e]; exact h b List.mem_cons_self
    · exact h _ (List.mem_cons_of_mem _ e)

theorem inv_skip {zt : K} {lo up : V3 K} {k : Nat} {l : List (Vtx K)} (h : Inv zt lo up k l) :
    Inv zt lo up (k + 1) l where
  len := by rcases h.len with e | ⟨e, e'⟩ <;> [exact Or.inl e; exact Or.inr ⟨e, by omega⟩]
  convex := h.convex
  fresh := fun v hv j hj => h.fresh v hv j (by omega)
  truthful := h.truthful
  arc := by
    intro j hj f hf
    rcases Nat.lt_succ_iff_lt_or_eq.1 hj with hj | rfl
    · exact h.arc j hj f hf
    · rw [cyc_false (fun v hv => by simp [h.fresh v hv j (le_refl _)])]; omega
  unflagged := by
    intro j hj hne
    rcases Nat.lt_succ_iff_lt_or_eq.1 hj with hj | rfl
    · exact h.unflagged j hj hne
    · obtain ⟨v, hv⟩ := List.exists_mem_of_ne_nil l hne
      exact ⟨v, hv, h.fresh v hv j (le_refl _)⟩

theorem inv_cut {zt : K} (hz : 0 ≤ zt) {lo up : V3 K} {k : Nat} {l : List (Vtx K)} (h : Inv zt lo up k l) :
    Inv zt lo up (k + 1) (cut zt (plane lo up k) l) where
  len := by
    have h1 := cut_length_le (zt := zt) (plane lo up k) h.convex
    rcases h.len with e | ⟨e, e'⟩
    · left
      have : l = [] := List.length_eq_zero_iff.1 e
      subst this; rfl
    · rcases clip_length_ge (B := behind zt (plane lo up k)) (x := entry zt (plane lo up k)) (y := exit zt (plane lo up k)) l e with h0 | h3
      · exact Or.inl h0
      · exact Or.inr ⟨h3, by omega⟩
  convex := convexPoly_cut hz _ h.convex
  fresh := by
    intro v hv j hj
    have hjk : j ≠ k := by omega
    have hjk' : ¬ j < k := by omega
    rcases clip_mem hv with ⟨h1, _⟩ | ⟨a, ha, b, hb, ⟨hA, hB, rfl⟩ | ⟨hA, hB, rfl⟩⟩
    · exact h.fresh v h1 j (by omega)
    · unfold entry
      split
      · simp [Vtx.set, plane, hjk, h.fresh b hb j (by omega)]
      · simp [mid, Vtx.set, plane, hjk, hjk']
    · unfold exit
      split
      · simp [Vtx.set, plane, hjk, h.fresh a ha j (by omega)]
      · simp [mid, Vtx.set, plane, hjk, hjk']
  truthful := by
    intro v hv j hon
    have key : ∀ a b : Vtx K, a ∈ l → b ∈ l → Opposite (plane lo up k) a.pt b.pt → (mid (plane lo up k) a b).on j = true →
        -(10 * zt) ≤ dist (plane lo up j) (mid (plane lo up k) a b).pt ∧ dist (plane lo up j) (mid (plane lo up k) a b).pt ≤ 10 * zt := by
      intro a b ha hb hop hj
      have hp := param_mem hop
      by_cases hjk : j = k
      · subst hjk
        have e : dist (plane lo up j) (mid (plane lo up j) a b).pt = 0 := dist_cut hop
        rw [e]; constructor <;> linarith
      · have : a.on j = true ∧ b.on j = true := by
          simp only [mid, Vtx.set, plane, hjk, if_false, Bool.and_eq_true] at hj
          exact hj.2
        have h1 := h.truthful a ha j this.1
        have h2 := h.truthful b hb j this.2
        show _ ≤ dist _ (lerp _ _ _) ∧ dist _ (lerp _ _ _) ≤ _
        rw [dist_lerp]
        have hc := convex_combination (p := dist (plane lo up j) a.pt) (q := dist (plane lo up j) b.pt) (r := -(10 * zt)) hp.1 hp.2
        have hc' := convex_combination (p := dist (plane lo up j) a.pt) (q := dist (plane lo up j) b.pt) (r := 10 * zt) hp.1 hp.2
        exact ⟨hc.1 h1.1 h2.1, hc'.2.1 h1.2 h2.2⟩
    have key2 : ∀ a : Vtx K, a ∈ l → behind zt (plane lo up k) a = false → dist (plane lo up k) a.pt ≤ 10 * zt →
        (a.set (plane lo up k).index).on j = true →
        -(10 * zt) ≤ dist (plane lo up j) a.pt ∧ dist (plane lo up j) a.pt ≤ 10 * zt := by
      intro a ha hA hd hj
      by_cases hjk : j = k
      · subst hjk
        refine ⟨?_, hd⟩
        simp only [behind, decide_eq_false_iff_not, not_lt] at hA
        exact hA
      · refine h.truthful a ha j ?_
        simpa [Vtx.set, plane, hjk] using hj
    rcases clip_mem hv with ⟨h1, _⟩ | ⟨a, ha, b, hb, ⟨hA, hB, rfl⟩ | ⟨hA, hB, rfl⟩⟩
    · exact h.truthful v h1 j hon
    · unfold entry at hon ⊢
      split at hon
      · rename_i hd
        rw [if_pos hd]
        exact key2 b hb hB hd hon
      · rename_i hd
        rw [if_neg hd]
        exact key a b ha hb (opposite_of hz hA hd).1 hon
    · unfold exit at hon ⊢
      split at hon
      · rename_i hd
        rw [if_pos hd]
        exact key2 a ha hA hd hon
      · rename_i hd
        rw [if_neg hd]
        exact key a b ha hb (opposite_of hz hB hd).2 hon
  arc := by
    intro j hj f hf
    rcases Nat.lt_succ_iff_lt_or_eq.1 hj with hj | rfl
    · exact le_trans (clip_cyc (between_of_flag hz (plane lo up k) hf hj) l) (h.arc j hj f hf)
    · refine le_trans (clip_flag l ?_) (h.convex _ (behind_label zt (plane lo up j)))
      intro b hb _
      simp [h.fresh b hb j (le_refl _)]
  unflagged := by
    intro j hj hne
    rcases Nat.lt_succ_iff_lt_or_eq.1 hj with hj | rfl
    · have hjk : j ≠ k := by omega
      have hl : l ≠ [] := by rintro rfl; exact hne rfl
      obtain ⟨u, hu, hfu⟩ := h.unflagged j hj hl
      have harc := h.arc j hj (fun p => !decide (dist (plane lo up k) p < -(10 * zt))) (by
        intro a b t h0 h1 e
        have := behind_label zt (plane lo up k) a b t h0 h1 (by simpa using e)
        simpa using this)
      rcases clip_unflagged (B := behind zt (plane lo up k)) (x := entry zt (plane lo up k)) (y := exit zt (plane lo up k))
        (f := fun v => v.on j) (by
          intro a b hA hB he
          unfold entry at he
          split at he
          · simpa [Vtx.set, plane, hjk] using he
          · simp only [mid, Vtx.set, plane, hjk, if_false, Bool.and_eq_true] at he
            exact he.2.2) (by
          intro a b hA hB he
          unfold exit at he
          split at he
          · simpa [Vtx.set, plane, hjk] using he
          · simp only [mid, Vtx.set, plane, hjk, if_false, Bool.and_eq_true] at he
            exact he.2.1) l harc hu hfu with h0 | h1
      · exact absurd h0 hne
      · exact h1
    · have hb : ∃ b ∈ l, behind zt (plane lo up j) b = true := by
        by_contra hn
        push Not at hn
        exact hne (clip_none l (fun b hb => by simpa using hn b hb))
      obtain ⟨b, hb, hB⟩ := hb
      exact ⟨b, clip_keeps hb hB, h.fresh b hb j (le_refl _)⟩

/-! ## The loop over the planes -/

/-- The polygon after the plane `k` is clipped or skipped. -/
def stage (zt : K) (lo up mn mx : V3 K) (k : Nat) (l : List (Vtx K)) : List (Vtx K) :=
  if (if k % 2 = 0 then mx.get (k / 2) > lo.get (k / 2) else mn.get (k / 2) < up.get (k / 2)) then
    cut zt (plane lo up k) l else l

theorem inv_stage {zt : K} (hz : 0 ≤ zt) {lo up : V3 K} (mn mx : V3 K) {k : Nat} {l : List (Vtx K)} (h : Inv zt lo up k l) :
    Inv zt lo up (k + 1) (stage zt lo up mn mx k l) := by
  unfold stage
  split_ifs
  all_goals first | exact inv_cut hz h | exact inv_skip h

theorem Inv.le {zt : K} {lo up : V3 K} {k : Nat} {l : List (Vtx K)} (h : Inv zt lo up k l) : l.length ≤ 3 + k := by
  rcases h.len with e | e <;> omega

theorem clipDim_eq {zt : K} (hz : 0 ≤ zt) {lo up : V3 K} (mn mx : V3 K) {d : Nat} (hd : d < 3) {l : List (Vtx K)}
    (h : Inv zt lo up (2 * d) l) :
    clipDim zt lo up mn mx d l = some (stage zt lo up mn mx (2 * d + 1) (stage zt lo up mn mx (2 * d) l)) := by
  have h1 := inv_stage hz mn mx h
  have h2 := inv_stage hz mn mx h1
  have e1 : (if mx.get d > lo.get d then clipPlane zt (plane lo up (2 * d)) l else some l) =
      some (stage zt lo up mn mx (2 * d) l) := by
    have m : 2 * d % 2 = 0 := by omega
    have q : 2 * d / 2 = d := by omega
    unfold stage at h1 ⊢
    simp only [m, q, if_true] at h1 ⊢
    by_cases hc : mx.get d > lo.get d
    · rw [if_pos hc] at h1
      rw [if_pos hc, if_pos hc]
      exact clipPlane_eq hz _ _ (by have := h1.le; omega)
    · rw [if_neg hc, if_neg hc]
  unfold clipDim
  rw [e1, Option.bind_some]
  generalize stage zt lo up mn mx (2 * d) l = l' at *
  have m : ¬ (2 * d + 1) % 2 = 0 := by omega
  have q : (2 * d + 1) / 2 = d := by omega
  unfold stage at h2 ⊢
  simp only [m, q, if_false] at h2 ⊢
  by_cases hc : mn.get d < up.get d
  · rw [if_pos hc] at h2
    rw [if_pos hc, if_pos hc]
    exact clipPlane_eq hz _ _ (by have := h2.le; omega)
  · rw [if_neg hc, if_neg hc]

/-- The polygon after all six planes. -/
def final (zt : K) (lo up p1 p2 p3 : V3 K) : List (Vtx K) :=
  (List.range 6).foldl (fun l k => stage zt lo up (triMin p1 p2 p3) (triMax p1 p2 p3) k l) [bare p1, bare p2, bare p3]

theorem clipTriangle_eq {zt : K} (hz : 0 ≤ zt) (p1 p2 p3 lo up : V3 K) :
    clipTriangle zt p1 p2 p3 lo up =
      if aligned zt p1 p2 p3 lo up then .null else .poly (final zt lo up p1 p2 p3) := by
  have h0 := inv_start zt lo up p1 p2 p3
  have hs := fun k (l : List (Vtx K)) (h : Inv zt lo up k l) => inv_stage hz (triMin p1 p2 p3) (triMax p1 p2 p3) h
  have h1 := hs _ _ h0
  have h2 := hs _ _ h1
  have h3 := hs _ _ h2
  have h4 := hs _ _ h3
  unfold clipTriangle
  split
  · rfl
  · simp only [Option.bind_some]
    rw [clipDim_eq hz _ _ (by omega) h0, Option.bind_some, clipDim_eq hz _ _ (by omega) h2, Option.bind_some,
      clipDim_eq hz _ _ (by omega) h4]
    rfl

theorem inv_final {zt : K} (hz : 0 ≤ zt) (p1 p2 p3 lo up : V3 K) : Inv zt lo up 6 (final zt lo up p1 p2 p3) := by
  have hs := fun k (l : List (Vtx K)) (h : Inv zt lo up k l) => inv_stage hz (triMin p1 p2 p3) (triMax p1 p2 p3) h
  exact hs _ _ (hs _ _ (hs _ _ (hs _ _ (hs _ _ (hs _ _ (inv_start zt lo up p1 p2 p3))))))

/-- What holds for the corners, and is preserved by clipping and skipping, holds in the end. -/
theorem final_forall {zt : K} {lo up p1 p2 p3 : V3 K} (P : List (Vtx K) → Prop)
    (h0 : P [bare p1, bare p2, bare p3])
    (hs : ∀ k < 6, ∀ l, P l → P (stage zt lo up (triMin p1 p2 p3) (triMax p1 p2 p3) k l)) :
    P (final zt lo up p1 p2 p3) :=
  hs 5 (by omega) _ (hs 4 (by omega) _ (hs 3 (by omega) _ (hs 2 (by omega) _ (hs 1 (by omega) _ (hs 0 (by omega) _ h0)))))

theorem stage_forall {zt : K} (hz : 0 ≤ zt) {lo up mn mx : V3 K} {k : Nat} {l : List (Vtx K)} {P : V3 K → Prop}
    (hP : ∀ a b t, 0 ≤ t → t ≤ 1 → P a → P b → P (lerp a b t)) (h : ∀ v ∈ l, P v.pt) :
    ∀ v ∈ stage zt lo up mn mx k l, P v.pt := by
  unfold stage
  split_ifs
  all_goals first | exact cut_forall hz _ hP h | exact h

theorem inTriangle_lerp {p1 p2 p3 a b : V3 K} {t : K} (h0 : 0 ≤ t) (h1 : t ≤ 1) (ha : InTriangle p1 p2 p3 a)
    (hb : InTriangle p1 p2 p3 b) : InTriangle p1 p2 p3 (lerp a b t) := by
  obtain ⟨u, v, w, hu, hv, hw, hs, hx, hy, hz⟩ := ha
  obtain ⟨u', v', w', hu', hv', hw', hs', hx', hy', hz'⟩ := hb
  have hc := fun p q (hp : (0:K) ≤ p) (hq : 0 ≤ q) => (convex_combination (p := p) (q := q) (r := 0) h0 h1).1 hp hq
  refine ⟨u + t * (u' - u), v + t * (v' - v), w + t * (w' - w), hc _ _ hu hu', hc _ _ hv hv', hc _ _ hw hw', ?_, ?_, ?_, ?_⟩
  · have : u + t * (u' - u) + (v + t * (v' - v)) + (w + t * (w' - w)) =
      (u + v + w) + t * ((u' + v' + w') - (u + v + w)) := by ring
    rw [this, hs, hs']; ring
  · simp only [lerp, hx, hx']; ring
  · simp only [lerp, hy, hy']; ring
  · simp only [lerp, hz, hz']; ring

theorem final_inTriangle {zt : K} (hz : 0 ≤ zt) (p1 p2 p3 lo up : V3 K) :
    ∀ v ∈ final zt lo up p1 p2 p3, InTriangle p1 p2 p3 v.pt := by
  refine final_forall (P := fun l => ∀ v ∈ l, InTriangle p1 p2 p3 v.pt) ?_ ?_
  · intro v hv
    simp only [List.mem_cons, List.not_mem_nil, or_false] at hv
    rcases hv with rfl | rfl | rfl
    · exact ⟨1, 0, 0, by simp, le_refl _, le_refl _, by ring, by simp [bare], by simp [bare], by simp [bare]⟩
    · exact ⟨0, 1, 0, le_refl _, by simp, le_refl _, by ring, by simp [bare], by simp [bare], by simp [bare]⟩
    · exact ⟨0, 0, 1, le_refl _, le_refl _, by simp, by ring, by simp [bare], by simp [bare], by simp [bare]⟩
  · intro k _ l h
    exact stage_forall hz (fun a b t h0 h1 ha hb => inTriangle_lerp h0 h1 ha hb) h

/-- The condition under which plane `k` is clipped. -/
def Active (lo up mn mx : V3 K) (k : Nat) : Prop :=
  if k % 2 = 0 then mx.get (k / 2) > lo.get (k / 2) else mn.get (k / 2) < up.get (k / 2)

theorem stage_active {zt : K} {lo up mn mx : V3 K} {k : Nat} (h : Active lo up mn mx k) (l : List (Vtx K)) :
    stage zt lo up mn mx k l = cut zt (plane lo up k) l := by
  unfold stage; exact if_pos h

theorem final_dist {zt : K} (hz : 0 ≤ zt) {p1 p2 p3 lo up : V3 K} {k : Nat} (hk : k < 6)
    (h : Active lo up (triMin p1 p2 p3) (triMax p1 p2 p3) k) :
    ∀ v ∈ final zt lo up p1 p2 p3, dist (plane lo up k) v.pt ≤ 10 * zt := by
  have keep : ∀ j l, (∀ v ∈ l, dist (plane lo up k) v.pt ≤ 10 * zt) →
      ∀ v ∈ stage zt lo up (triMin p1 p2 p3) (triMax p1 p2 p3) j l, dist (plane lo up k) v.pt ≤ 10 * zt := by
    intro j l hl
    refine stage_forall hz (P := fun p => dist (plane lo up k) p ≤ 10 * zt) ?_ hl
    intro a b t h0 h1 ha hb
    rw [dist_lerp]
    exact (convex_combination h0 h1).2.1 ha hb
  have own : ∀ l, ∀ v ∈ stage zt lo up (triMin p1 p2 p3) (triMax p1 p2 p3) k l, dist (plane lo up k) v.pt ≤ 10 * zt := by
    intro l
    rw [stage_active h]
    exact cut_dist hz _
  have e : final zt lo up p1 p2 p3 = stage zt lo up (triMin p1 p2 p3) (triMax p1 p2 p3) 5
    (stage zt lo up (triMin p1 p2 p3) (triMax p1 p2 p3) 4 (stage zt lo up (triMin p1 p2 p3) (triMax p1 p2 p3) 3
    (stage zt lo up (triMin p1 p2 p3) (triMax p1 p2 p3) 2 (stage zt lo up (triMin p1 p2 p3) (triMax p1 p2 p3) 1
    (stage zt lo up (triMin p1 p2 p3) (triMax p1 p2 p3) 0 [bare p1, bare p2, bare p3]))))) := rfl
  rw [e]
  have : k = 0 ∨ k = 1 ∨ k = 2 ∨ k = 3 ∨ k = 4 ∨ k = 5 := by omega
  rcases this with rfl | rfl | rfl | rfl | rfl | rfl
  · exact keep _ _ (keep _ _ (keep _ _ (keep _ _ (keep _ _ (own _)))))
  · exact keep _ _ (keep _ _ (keep _ _ (keep _ _ (own _))))
  · exact keep _ _ (keep _ _ (keep _ _ (own _)))
  · exact keep _ _ (keep _ _ (own _))
  · exact keep _ _ (own _)
  · exact own _

/-- Vertices that are not corners are flagged. -/
theorem final_new_flagged {zt : K} (p1 p2 p3 lo up : V3 K) :
    ∀ v ∈ final zt lo up p1 p2 p3, (v.pt = p1 ∨ v.pt = p2 ∨ v.pt = p3) ∨ ∃ k, v.on k = true := by
  refine final_forall (P := fun l => ∀ v ∈ l, (v.pt = p1 ∨ v.pt = p2 ∨ v.pt = p3) ∨ ∃ k, v.on k = true) ?_ ?_
  · intro v hv
    simp only [List.mem_cons, List.not_mem_nil, or_false] at hv
    rcases hv with rfl | rfl | rfl <;> simp [bare]
  · intro k _ l h
    have hcut : ∀ v ∈ cut zt (plane lo up k) l, (v.pt = p1 ∨ v.pt = p2 ∨ v.pt = p3) ∨ ∃ k, v.on k = true := by
      intro v hv
      rcases clip_mem hv with ⟨h1, _⟩ | ⟨a, ha, b, hb, ⟨hA, hB, rfl⟩ | ⟨hA, hB, rfl⟩⟩
      · exact h v h1
      · right; refine ⟨k, ?_⟩; unfold entry; split <;> simp [mid, Vtx.set, plane]
      · right; refine ⟨k, ?_⟩; unfold exit; split <;> simp [mid, Vtx.set, plane]
    unfold stage
    split_ifs
    all_goals first | exact hcut | exact h

/-- A polygon that is cut by a plane gets exactly two flagged vertices. -/
theorem cut_two_flagged {zt : K} {pl : Plane K} {l : List (Vtx K)} (hc : ConvexPoly l) (hf : ∀ v ∈ l, v.on pl.index = false)
    {a b : Vtx K} (ha : a ∈ l) (hb : b ∈ l) (hA : behind zt pl a = true) (hB : behind zt pl b = false) :
    ((cut zt pl l).filter fun v => v.on pl.index).length = 2 := by
  unfold cut
  rw [clip_count (f := fun v => v.on pl.index) l hf
    (fun a b _ _ => by unfold entry; split <;> simp [mid, Vtx.set])
    (fun a b _ _ => by unfold exit; split <;> simp [mid, Vtx.set])]
  have h1 := hc _ (behind_label zt pl)
  have h2 := two_le_cyc (behind zt pl) l ha hb (by rw [hA, hB]; simp)
  exact le_antisymm h1 h2

/-! ## Nothing is lost -/

/-- The affine function of a half-space. -/
def half (n : V3 K) (c : K) (p : V3 K) : K := n.x * p.x + n.y * p.y + n.z * p.z - c

omit [LinearOrder K] [IsStrictOrderedRing K] in
theorem half_affine (n : V3 K) (c : K) : Affine (half n c) := by
  intro a b t; simp only [half, lerp]; ring

/-- A combination of a half-space and the distance to a plane is a half-space. -/
theorem half_combine (n : V3 K) (c d e : K) (pl : Plane K) :
    ∃ n' c', ∀ p, half n' c' p = half n c p - d * (dist pl p + e) := by
  by_cases h2 : pl.index % 2 = 0
  · match hi : pl.index / 2 with
    | 0 => exact ⟨⟨n.x + d, n.y, n.z⟩, c + d * (pl.position + e), fun p => by
              simp only [half, dist, h2, if_true, hi, V3.get]; ring⟩
    | 1 => exact ⟨⟨n.x, n.y + d, n.z⟩, c + d * (pl.position + e), fun p => by
              simp only [half, dist, h2, if_true, hi, V3.get]; ring⟩
    | _ + 2 => exact ⟨⟨n.x, n.y, n.z + d⟩, c + d * (pl.position + e), fun p => by
                simp only [half, dist, h2, if_true, hi, V3.get]; ring⟩
  · match hi : pl.index / 2 with
    | 0 => exact ⟨⟨n.x - d, n.y, n.z⟩, c + d * (e - pl.position), fun p => by
              simp only [half, dist, h2, if_false, hi, V3.get]; ring⟩
    | 1 => exact ⟨⟨n.x, n.y - d, n.z⟩, c + d * (e - pl.position), fun p => by
              simp only [half, dist, h2, if_false, hi, V3.get]; ring⟩
    | _ + 2 => exact ⟨⟨n.x, n.y, n.z - d⟩, c + d * (e - pl.position), fun p => by
                simp only [half, dist, h2, if_false, hi, V3.get]; ring⟩

/-- The vertex of a list at which a function is smallest. -/
theorem exists_min {α : Type _} (g : α → K) (l : List α) (h : l ≠ []) : ∃ b ∈ l, ∀ c ∈ l, g b ≤ g c := by
  induction l with
  | nil => exact absurd rfl h
  | cons a l ih =>
    by_cases hl : l = []
    · subst hl; exact ⟨a, List.mem_cons_self, fun c hc => by simp at hc; rw [hc]⟩
    · obtain ⟨b, hb, hmin⟩ := ih hl
      rcases le_total (g a) (g b) with hab | hab
      · refine ⟨a, List.mem_cons_self, fun c hc => ?_⟩
        rcases List.mem_cons.1 hc with rfl | hc
        · exact le_refl _
        · exact le_trans hab (hmin c hc)
      · refine ⟨b, List.mem_cons_of_mem _ hb, fun c hc => ?_⟩
        rcases List.mem_cons.1 hc with rfl | hc
        · exact hab
        · exact hmin c hc

theorem hull_cut {zt : K} (hz : 0 ≤ zt) (pl : Plane K) {l : List (Vtx K)} (hconv : ConvexPoly l) {q : V3 K}
    (hq : InHull (l.map Vtx.pt) q) (hd : dist pl q < -(10 * zt)) : InHull ((cut zt pl l).map Vtx.pt) q := by
  intro n c hout
  by_contra hgt
  rw [not_le] at hgt
  have hgq : 0 < half n c q := by simp only [half]; linarith
  have hgo : ∀ v ∈ cut zt pl l, half n c v.pt ≤ 0 := by
    intro v hv
    have := hout v.pt (List.mem_map_of_mem hv)
    simp only [half]; linarith
  have hull : ∀ (n' : V3 K) (c' : K), (∀ v ∈ l, half n' c' v.pt ≤ 0) → half n' c' q ≤ 0 := by
    intro n' c' h
    have := hq n' c' (by
      intro p hp
      obtain ⟨v, hv, rfl⟩ := List.mem_map.1 hp
      have := h v hv
      simp only [half] at this; linarith)
    simp only [half]; linarith
  -- vertices behind the plane
  set E := 10 * zt with hE
  have hEn : 0 ≤ E := by linarith
  have hbeh : ∀ v, behind zt pl v = true ↔ dist pl v.pt + E < 0 := by
    intro v; simp only [behind, decide_eq_true_eq]; constructor <;> intro h <;> linarith
  have hbeh' : ∀ v, behind zt pl v = false ↔ 0 ≤ dist pl v.pt + E := by
    intro v; simp only [behind, decide_eq_false_iff_not, not_lt]; constructor <;> intro h <;> linarith
  by_cases hB : l.filter (behind zt pl) = []
  · -- nothing is behind the plane, but the point is
    obtain ⟨n', c', h'⟩ := half_combine (⟨0, 0, 0⟩ : V3 K) 0 1 E pl
    have := hull n' c' (by
      intro v hv
      have hv' : behind zt pl v = false := by
        cases hb : behind zt pl v
        · rfl
        · have : v ∈ l.filter (behind zt pl) := List.mem_filter.2 ⟨hv, hb⟩
          rw [hB] at this; simp at this
      rw [h']
      have := (hbeh' v).1 hv'
      simp only [half]; linarith)
    rw [h'] at this
    simp only [half] at this
    linarith
  · -- the pairwise inequality
    have pair : ∀ b ∈ l, ∀ m ∈ l, behind zt pl b = true → behind zt pl m = false →
        half n c m.pt * -(dist pl b.pt + E) + half n c b.pt * (dist pl m.pt + E) ≤ 0 := by
      intro b hb m hm hbB hmB
      by_contra hcon
      rw [not_le] at hcon
      have hβ := (hbeh b).1 hbB
      have hν := (hbeh' m).1 hmB
      have hgb : half n c b.pt ≤ 0 := hgo b (clip_keeps hb hbB)
      -- a slope for which both vertices are in front
      obtain ⟨d, hd0, hdb, hdm⟩ : ∃ d : K, 0 ≤ d ∧ 0 < half n c b.pt - d * (dist pl b.pt + E) ∧
          0 < half n c m.pt - d * (dist pl m.pt + E) := by
        set β := -(dist pl b.pt + E) with hβe
        set ν := dist pl m.pt + E with hνe
        set gb := half n c b.pt
        set gm := half n c m.pt
        have hβp : 0 < β := by linarith
        have eb : dist pl b.pt + E = -β := by linarith
        rw [eb]
        have hgm : 0 < gm := by
          by_contra h
          rw [not_lt] at h
          have h1 : gm * β ≤ 0 := mul_nonpos_of_nonpos_of_nonneg h hβp.le
          have h2 : gb * ν ≤ 0 := mul_nonpos_of_nonpos_of_nonneg hgb hν
          linarith
        rcases eq_or_lt_of_le hν with h0 | hνp
        · refine ⟨-gb / β + 1, ?_, ?_, ?_⟩
          · have : 0 ≤ -gb / β := div_nonneg (by linarith) hβp.le
            linarith
          · have : gb - (-gb / β + 1) * -β = β := by field_simp; ring
            rw [this]; exact hβp
          · rw [← h0]; simpa using hgm
        · -- midpoint of -gb/β and gm/ν
          have hlt : -gb / β < gm / ν := by
            rw [div_lt_div_iff₀ hβp hνp]; linarith
          refine ⟨(-gb / β + gm / ν) / 2, ?_, ?_, ?_⟩
          · have h1 : 0 ≤ -gb / β := div_nonneg (by linarith) hβp.le
            have : 0 ≤ gm / ν := div_nonneg hgm.le hνp.le
            linarith
          · have h1 : -gb / β < (-gb / β + gm / ν) / 2 := by linarith
            rw [div_lt_iff₀ hβp] at h1
            linarith
          · have h1 : (-gb / β + gm / ν) / 2 < gm / ν := by linarith
            rw [lt_div_iff₀ hνp] at h1
            linarith
      obtain ⟨n', c', h'⟩ := half_combine n c d E pl
      have hlab := label_of_affine' (half_affine n' c') (0 : K)
      have hno := clip_arc (B := behind zt pl) (x := entry zt pl) (y := exit zt pl) (f := fun v => decide (0 < half n' c' v.pt))
        (between_of_label hz pl hlab) (entry_not_behind hz pl) (exit_not_behind hz pl) l (by
          intro o ho hoB
          have h1 := hgo o ho
          have h2 := (hbeh' o).1 hoB
          have h3 := mul_nonneg hd0 h2
          simp only [decide_eq_false_iff_not, not_lt, h']
          linarith) (hconv _ hlab) hb hm hbB hmB
      apply hno
      constructor
      · simp only [decide_eq_true_eq, h']; exact hdb
      · simp only [decide_eq_true_eq, h']; exact hdm
    obtain ⟨b0, hb0, hmin⟩ := exists_min (fun v : Vtx K => half n c v.pt / (dist pl v.pt + E)) _ hB
    obtain ⟨hb0l, hb0B⟩ := List.mem_filter.1 hb0
    have hβ0 := (hbeh b0).1 hb0B
    set d := half n c b0.pt / (dist pl b0.pt + E) with hdef
    have hd0 : 0 ≤ d := div_nonneg_of_nonpos (hgo b0 (clip_keeps hb0l hb0B)) hβ0.le
    obtain ⟨n', c', h'⟩ := half_combine n c d E pl
    have := hull n' c' (by
      intro v hv
      rw [h']
      cases hvB : behind zt pl v
      · have hp := pair b0 hb0l v hv hb0B hvB
        have e : half n c b0.pt = d * (dist pl b0.pt + E) := by rw [hdef, div_mul_cancel₀ _ hβ0.ne]
        rw [e] at hp
        have hb' : 0 < -(dist pl b0.pt + E) := by linarith
        have : (half n c v.pt - d * (dist pl v.pt + E)) * -(dist pl b0.pt + E) ≤ 0 := by nlinarith
        by_contra hcon
        rw [not_le] at hcon
        have := mul_pos hcon hb'
        linarith
      · have hm := hmin v (List.mem_filter.2 ⟨hv, hvB⟩)
        have hβ := (hbeh v).1 hvB
        rw [le_div_iff_of_neg hβ] at hm
        linarith)
    rw [h'] at this
    have : 0 ≤ d * -(dist pl q + E) := mul_nonneg hd0 (by linarith)
    linarith

theorem hull_of_triangle {p1 p2 p3 q : V3 K} (h : InTriangle p1 p2 p3 q) : InHull [p1, p2, p3] q := by
  obtain ⟨u, v, w, hu, hv, hw, hs, hx, hy, hz⟩ := h
  intro n c hall
  have h1 := hall p1 (by simp)
  have h2 := hall p2 (by simp)
  have h3 := hall p3 (by simp)
  have e : n.x * q.x + n.y * q.y + n.z * q.z = u * (n.x * p1.x + n.y * p1.y + n.z * p1.z) +
      v * (n.x * p2.x + n.y * p2.y + n.z * p2.z) + w * (n.x * p3.x + n.y * p3.y + n.z * p3.z) := by
    rw [hx, hy, hz]; ring
  have e2 : c = u * c + v * c + w * c := by rw [← add_mul, ← add_mul, hs, one_mul]
  rw [e, e2]
  exact add_le_add (add_le_add (mul_le_mul_of_nonneg_left h1 hu) (mul_le_mul_of_nonneg_left h2 hv)) (mul_le_mul_of_nonneg_left h3 hw)

theorem deep_dist {lo up q : V3 K} {tol : K} (h : DeepInBox lo up tol q) : ∀ k < 6, dist (plane lo up k) q < -tol := by
  obtain ⟨⟨h1, h2⟩, ⟨h3, h4⟩, h5, h6⟩ := h
  intro k hk
  have : k = 0 ∨ k = 1 ∨ k = 2 ∨ k = 3 ∨ k = 4 ∨ k = 5 := by omega
  rcases this with rfl | rfl | rfl | rfl | rfl | rfl <;> simp [dist, plane, V3.get] <;> linarith

theorem final_hull {zt : K} (hz : 0 ≤ zt) {p1 p2 p3 lo up q : V3 K} (hq : InTriangle p1 p2 p3 q)
    (hd : DeepInBox lo up (10 * zt) q) : InHull ((final zt lo up p1 p2 p3).map Vtx.pt) q := by
  refine (final_forall (zt := zt) (lo := lo) (up := up) (p1 := p1) (p2 := p2) (p3 := p3)
    (P := fun l => ConvexPoly l ∧ InHull (l.map Vtx.pt) q) ⟨convexPoly_three _ _ _, hull_of_triangle hq⟩ ?_).2
  rintro k hk l ⟨hc, hh⟩
  unfold stage
  split_ifs
  all_goals first
    | exact ⟨hc, hh⟩
    | exact ⟨convexPoly_cut hz _ hc, hull_cut hz _ hc hh (deep_dist hd k hk)⟩

end QuESo.Clip
