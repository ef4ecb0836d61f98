import Verif.Model.DictionaryList

/-!
# Specification vocabulary for iterators and the list of dictionaries
-/
namespace QuESo.Spec
open QuESo.DList QuESo.MView

/-- Expressions with iterators. -/
inductive Expr
  | begin
  | fin
  | plus (e : Expr) (n : Int)
  | minus (e : Expr) (n : Int)
  | inc (e : Expr)
  | dec (e : Expr)

/-- The index that an expression stands for, if the vector has `n` elements and the expression never leaves the range from begin to end. -/
def Expr.index (n : Nat) : Expr → Option Int
  | .begin => some 0
  | .fin => some n
  | .plus e k => (e.index n).bind fun i => if 0 ≤ i + k ∧ i + k ≤ n then some (i + k) else none
  | .minus e k => (e.index n).bind fun i => if 0 ≤ i - k ∧ i - k ≤ n then some (i - k) else none
  | .inc e => (e.index n).bind fun i => if 0 ≤ i + 1 ∧ i + 1 ≤ n then some (i + 1) else none
  | .dec e => (e.index n).bind fun i => if 0 ≤ i - 1 ∧ i - 1 ≤ n then some (i - 1) else none

/-- The iterator that the operators give. -/
def Expr.eval {α : Type} (v : Vec α) : Expr → Option It
  | .begin => some (DList.begin v)
  | .fin => some (finish v)
  | .plus e k => (e.eval v).bind fun i => add v i k
  | .minus e k => (e.eval v).bind fun i => sub v i k
  | .inc e => (e.eval v).bind (preInc v)
  | .dec e => (e.eval v).bind (preDec v)

/-- An iterator that stands for an index. -/
def At {α : Type} (v : Vec α) (k : Int) (i : It) : Prop := i = ⟨v.block, k.toNat, v.data.length⟩ ∧ 0 ≤ k ∧ k ≤ v.data.length

/-- The dictionaries of the list: none is null, none is there twice, none is owned by a holder as well, and all exist. -/
structure Owned {D : Type} (s : State D) : Prop where
  noNull : ∃ as : List Nat, s.list.data = as.map some
  nodup : (s.list.data ++ s.holders.filter fun h => h ≠ none).Nodup
  exist : ∀ a, some a ∈ s.list.data ++ s.holders → a < s.heap.length

end QuESo.Spec
