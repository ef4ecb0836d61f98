import Verif.Model.Lifetime

/-!
# Specification vocabulary: programs that are careful with lifetimes
-/
namespace QuESo.Spec
open QuESo.Life

/-- Every action of a program meets a condition, in the state in which it happens. -/
def Always (P : State → Op → Prop) (s : State) : List Op → Prop
  | [] => True
  | o :: os => P s o ∧ Always P (s.step o).1 os

/-- The program does not release an object as long as it owns memory (holders of settings that were not handed over, models, meshes made in Python), and it
makes models of correct settings only. -/
def KeepsOwners (s : State) : Op → Prop
  | .release i => ∀ p ∈ s.parts, p.owner ≠ .wrapper i
  | .build _ ok => ok = true
  | _ => True

/-- Elements of a model, iterators of condition segments and triangles of a mesh. -/
def Weak : Call → Prop
  | .elements _ | .segmentIter | .triangleNext _ => True
  | _ => False

/-- No other object refers to what the holder owns. -/
def OnlyReference (s : State) (h : Nat) : Prop :=
  ∀ i w p, s.wrappers[i]? = some w → s.alive i = true → i ≠ h → s.parts[w.part]? = some p → p.owner ≠ .wrapper h

/-- The program does not ask for elements of a model, iterators of segments and triangles of a mesh, and there are no other references to settings when it hands them over. -/
def Tidy (s : State) : Op → Prop
  | .get c _ => ¬ Weak c
  | .build h _ => OnlyReference s h
  | .append _ h => OnlyReference s h
  | _ => True

end QuESo.Spec
