import Verif.Proofs.GridIndexer
import Verif.Spec.Geometry
import Mathlib.Tactic.FieldSimp
import Mathlib.Algebra.BigOperators.Group.Finset.Basic
import Mathlib.Algebra.BigOperators.Ring.Finset

namespace QuESo.Grid
open Spec
variable {K : Type _} [Field K] [LinearOrder K] [IsStrictOrderedRing K]

theorem delta_pos {lo up : K} {n : Nat} (h : lo < up) (hn : 0 < n) : 0 < delta lo up n := by
  unfold delta
  have : 0 < |up - lo| := abs_pos.mpr (by linarith [sub_pos.mpr h] : up - lo ≠ 0)
  exact div_pos this (by exact_mod_cast hn)

theorem delta_mul {lo up : K} {n : Nat} (h : lo ≤ up) (hn : 0 < n) :
    delta lo up n * (n : K) = up - lo := by
  unfold delta
  have : (n : K) ≠ 0 := by exact_mod_cast hn.ne'
  rw [abs_of_nonneg (by linarith), div_mul_cancel₀ _ this]

/-- One-dimensional half-open cover. -/
theorem exists_slot (d : K) (a : K) (n : Nat) (h0 : 0 ≤ a) (h1 : a < d * (n : K)) :
    ∃ k, k < n ∧ d * (k : K) ≤ a ∧ a < d * (1 + (k : K)) := by
  induction n with
  | zero => exact absurd h1 (by push_cast; linarith [mul_zero d])
  | succ m ih =>
    by_cases h : a < d * (m : K)
    · obtain ⟨k, hk, h2⟩ := ih h
      exact ⟨k, by omega, h2⟩
    · refine ⟨m, by omega, not_lt.mp h, ?_⟩
      push_cast at h1
      rwa [add_comm] at h1

theorem exists_slot_closed (d : K) (a : K) (n : Nat) (hn : 0 < n) (h0 : 0 ≤ a)
    (h1 : a ≤ d * (n : K)) :
    ∃ k, k < n ∧ d * (k : K) ≤ a ∧ a ≤ d * (1 + (k : K)) := by
  rcases lt_or_eq_of_le h1 with h | h
  · obtain ⟨k, h1, h2, h3⟩ := exists_slot d a n h0 h
    exact ⟨k, h1, h2, h3.le⟩
  · obtain ⟨m, rfl⟩ : ∃ m, n = m + 1 := ⟨n - 1, by omega⟩
    refine ⟨m, by omega, ?_, ?_⟩
    · have hd : 0 ≤ d := by
        by_contra hc
        have : d * ((m + 1 : ℕ) : K) < 0 := mul_neg_of_neg_of_pos (not_le.mp hc) (by positivity)
        linarith
      rw [h]; push_cast; nlinarith
    · rw [h]; push_cast; rw [add_comm (m : K) 1]

theorem slot_unique (d : K) (hd : 0 < d) (a : K) (k k' : Nat)
    (h1 : d * (k : K) < a) (h2 : a < d * (1 + (k : K)))
    (h1' : d * (k' : K) < a) (h2' : a < d * (1 + (k' : K))) : k = k' := by
  have e1 : (k : K) < 1 + (k' : K) := lt_of_mul_lt_mul_left (lt_trans h1 h2') hd.le
  have e2 : (k' : K) < 1 + (k : K) := lt_of_mul_lt_mul_left (lt_trans h1' h2) hd.le
  have e1' : k < 1 + k' := by exact_mod_cast e1
  have e2' : k' < 1 + k := by exact_mod_cast e2
  omega

theorem slot_unique_half (d : K) (hd : 0 < d) (a : K) (k k' : Nat)
    (h1 : d * (k : K) ≤ a) (h2 : a < d * (1 + (k : K)))
    (h1' : d * (k' : K) ≤ a) (h2' : a < d * (1 + (k' : K))) : k = k' := by
  have e1 : (k : K) < 1 + (k' : K) := lt_of_mul_lt_mul_left (lt_of_le_of_lt h1 h2') hd.le
  have e2 : (k' : K) < 1 + (k : K) := lt_of_mul_lt_mul_left (lt_of_le_of_lt h1' h2) hd.le
  have e1' : k < 1 + k' := by exact_mod_cast e1
  have e2' : k' < 1 + k := by exact_mod_cast e2
  omega

theorem cellBox_volume (n : V3 Nat) (dom : Box K) (v : V3 Nat) :
    boxVolume (cellBox n dom v) = delta dom.lower.x dom.upper.x n.x * delta dom.lower.y dom.upper.y n.y *
      delta dom.lower.z dom.upper.z n.z := by
  unfold boxVolume cellBox; simp only []; ring

end QuESo.Grid
