import Verif.Spec.Clip
import Mathlib.Analysis.LocallyConvex.Separation
import Mathlib.Analysis.Convex.Topology
import Mathlib.Analysis.Normed.Module.FiniteDimension

/-! # Half-spaces and convex hulls over the reals -/
namespace QuESo
open QuESo.Spec

/-- A point as a vector of Mathlib. -/
def toVec (p : V3 ℝ) : ℝ × ℝ × ℝ := (p.x, p.y, p.z)

theorem inHull_convexHull (l : List (V3 ℝ)) (q : V3 ℝ) (h : InHull l q) :
    toVec q ∈ convexHull ℝ {v | ∃ p ∈ l, toVec p = v} := by
  by_contra hn
  have hfin : Set.Finite {v | ∃ p ∈ l, toVec p = v} := by
    have : {v | ∃ p ∈ l, toVec p = v} = {v | v ∈ l.map toVec} := by ext v; simp
    rw [this]
    exact List.finite_toSet _
  obtain ⟨f, u, h1, h2⟩ := geometric_hahn_banach_closed_point (convex_convexHull ℝ _) (hfin.isClosed_convexHull ℝ) hn
  have lin : ∀ p : V3 ℝ, f (toVec p) = f (1, 0, 0) * p.x + f (0, 1, 0) * p.y + f (0, 0, 1) * p.z := by
    intro p
    have e : toVec p = p.x • ((1, 0, 0) : ℝ × ℝ × ℝ) + p.y • ((0, 1, 0) : ℝ × ℝ × ℝ) + p.z • ((0, 0, 1) : ℝ × ℝ × ℝ) := by
      simp [toVec]
    rw [e, map_add, map_add, map_smul, map_smul, map_smul]
    simp only [smul_eq_mul]; ring
  have := h ⟨f (1, 0, 0), f (0, 1, 0), f (0, 0, 1)⟩ u (by
    intro v hv
    have := h1 (toVec v) (subset_convexHull ℝ _ ⟨v, hv, rfl⟩)
    rw [lin] at this
    exact this.le)
  rw [lin] at h2
  simp only at this
  linarith

end QuESo
