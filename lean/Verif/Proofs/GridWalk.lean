import Verif.Proofs.GridIndexer

namespace QuESo.Grid
open Spec

/-- Repeated stepping in direction `d` until a global end is reported; the result lists the visited
cells and says whether the walk ended within `fuel` steps.  This is the loop a user of
`GetNextIndex` writes. -/
def walk (n : V3 Nat) (p : Partition) (d : Dir) : (fuel : Nat) → Nat → List Nat × Bool
  | 0, i => ([i], false)
  | fuel + 1, i =>
    match next n p d i with
    | (_, .globalEnd) => ([i], true)
    | (j, _) => ((i :: (walk n p d fuel j).1), (walk n p d fuel j).2)

theorem walk_from (n : V3 Nat) (p : Partition) (hp : ValidPart n p) (d : Dir) (fuel : Nat) :
    ∀ i, i < numElements n → InPart p (toMat n i) → total p ≤ rank p d (toMat n i) + fuel →
      (walk n p d fuel i).2 = true ∧
      (∀ j, j ∈ (walk n p d fuel i).1 ↔
        (j < numElements n ∧ InPart p (toMat n j) ∧ rank p d (toMat n i) ≤ rank p d (toMat n j))) ∧
      (walk n p d fuel i).1.Nodup := by
  induction fuel with
  | zero =>
    intro i _ h hr
    have := rank_lt hp d h
    omega
  | succ fuel ih =>
    intro i hi h hr
    have e := next_eq n p d i
    have hin := stepV_inPart hp d h
    have hgrid := inGrid_of_inPart hp hin
    by_cases hg : (stepV p d (toMat n i)).2 = .globalEnd
    · have hw : walk n p d (fuel + 1) i = ([i], true) := by
        simp only [walk]; rw [e, hg]
      rw [hw]
      refine ⟨rfl, fun j => ?_, by simp⟩
      obtain ⟨_, hlast⟩ := stepV_global hp d h hg
      have hrl := rank_last hp d
      rw [← hlast] at hrl
      simp only [List.mem_singleton]
      constructor
      · rintro rfl; exact ⟨hi, h, le_refl _⟩
      · rintro ⟨hj, hjp, hjr⟩
        have := rank_lt hp d hjp
        have he : rank p d (toMat n j) = rank p d (toMat n i) := by omega
        have := rank_inj d hjp h he
        rw [← toVec_toMat n j, this, toVec_toMat]
    · have hw : walk n p d (fuel + 1) i =
          (i :: (walk n p d fuel (toVec n (stepV p d (toMat n i)).1)).1,
            (walk n p d fuel (toVec n (stepV p d (toMat n i)).1)).2) := by
        simp only [walk]; rw [e]
        cases h3 : (stepV p d (toMat n i)).2 with
        | middle => rfl
        | localEnd => rfl
        | globalEnd => exact absurd h3 hg
      have hm : toMat n (toVec n (stepV p d (toMat n i)).1) = (stepV p d (toMat n i)).1 :=
        toMat_toVec n _ hgrid
      have hrk := stepV_rank hp d h hg
      obtain ⟨ih1, ih2, ih3⟩ := ih (toVec n (stepV p d (toMat n i)).1) (toVec_lt n _ hgrid)
        (by rw [hm]; exact hin) (by rw [hm, hrk]; omega)
      rw [hm, hrk] at ih2
      rw [hw]
      refine ⟨ih1, fun j => ?_, ?_⟩
      · simp only [List.mem_cons, ih2]
        constructor
        · rintro (rfl | ⟨a, b, c⟩)
          · exact ⟨hi, h, le_refl _⟩
          · exact ⟨a, b, by omega⟩
        · rintro ⟨a, b, c⟩
          by_cases hc : rank p d (toMat n i) + 1 ≤ rank p d (toMat n j)
          · exact Or.inr ⟨a, b, hc⟩
          · left
            have := rank_inj d b h (by omega)
            rw [← toVec_toMat n j, this, toVec_toMat]
      · simp only [List.nodup_cons]
        refine ⟨fun hmem => ?_, ih3⟩
        have := ((ih2 i).mp hmem).2.2
        omega

end QuESo.Grid
