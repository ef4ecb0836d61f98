import Verif.Model.Parallel

/-!
# Specification vocabulary: data races
-/
namespace QuESo.Spec
open QuESo.Par

/-- Two accesses of different threads to the same object, at least one of them writing, that neither both happen in critical sections nor are both atomic. -/
def Conflict (a b : Access) : Prop := a.loc = b.loc ∧ (a.write = true ∨ b.write = true) ∧ ¬ (a.sync = b.sync ∧ a.sync ≠ .none)

/-- A parallel loop with `n` iterations has a data race if the iteration `i` runs on the thread `who i`; `body t i` are the accesses of iteration `i` on thread `t`. -/
def Race (n : Nat) (body : Nat → Nat → List Access) (who : Nat → Nat) : Prop :=
  ∃ i < n, ∃ j < n, who i ≠ who j ∧ ∃ a ∈ body (who i) i, ∃ b ∈ body (who j) j, Conflict a b

/-- No data race, whichever thread runs which iteration. -/
def RaceFree (n : Nat) (body : Nat → Nat → List Access) : Prop := ∀ who, ¬ Race n body who

/-- `w` is an interleaving of the lists `ls`: at every moment one of them makes its next step. -/
inductive Interleaving {α : Type _} : List (List α) → List α → Prop
  | done {ls} : (∀ l ∈ ls, l = []) → Interleaving ls []
  | step {ls x l w} (i : Nat) : ls[i]? = some (x :: l) → Interleaving (ls.set i l) w → Interleaving ls (x :: w)

end QuESo.Spec
