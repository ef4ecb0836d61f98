import Verif.Model.MeshView

/-!
# Model of the list of dictionaries in Python and of dereferencing iterators

`queso/includes/dereference_iterator.hpp`, `queso/python/bindings/add_dictionary_to_python.cpp` (class `DictionaryList`) and
`queso/python/bindings/define_python.hpp` (class `UniqueHolder`).

A dictionary is on the heap and has an address (a number); a `Unique<T>` is an address or null (`none`).  Simplification: what a dictionary
contains is an arbitrary type.  `Option`/`none` as result is undefined behaviour.
-/
namespace QuESo.DList
open QuESo.MView

/-- A random access iterator of `std::vector`: the block of memory it points to, its position, and the number of elements of the vector when it was
made.  (The last number decides whether an iterator to the end is still valid: `push_back` invalidates it even if there is enough memory.) -/
structure It where
  block : Nat
  pos : Nat
  len : Nat
  deriving DecidableEq, Repr

section
variable {α : Type}

/-- Whether an iterator may be used: its memory is still in use, and it points to an element, or to the end and nothing was added. -/
def valid (v : Vec α) (i : It) : Bool := decide (i.block = v.block) && (decide (i.pos < i.len) || decide (i.len = v.data.length)) && decide (i.pos ≤ v.data.length)

/-- `self.begin()` with `dereference_iterator`, dereference_iterator.hpp L271-274. -/
def begin (v : Vec α) : It := ⟨v.block, 0, v.data.length⟩

/-- `self.end()` with `dereference_iterator`, dereference_iterator.hpp L271-274. -/
def finish (v : Vec α) : It := ⟨v.block, v.data.length, v.data.length⟩

/-- `it + n`, `it += n`, dereference_iterator.hpp L174-180 and L239-251: it must stay between begin and end. -/
def add (v : Vec α) (i : It) (n : Int) : Option It :=
  if valid v i = true then
    if 0 ≤ (i.pos : Int) + n ∧ (i.pos : Int) + n ≤ v.data.length then some ⟨v.block, ((i.pos : Int) + n).toNat, v.data.length⟩ else none
  else none

/-- `it - n`, `it -= n`, dereference_iterator.hpp L182-188 and L253-258. -/
def sub (v : Vec α) (i : It) (n : Int) : Option It := add v i (-n)

/-- `++it`, dereference_iterator.hpp L147-151: the new value (and the value of the expression). -/
def preInc (v : Vec α) (i : It) : Option It := add v i 1

/-- `it++`, dereference_iterator.hpp L153-158: the value of the expression and the new value. -/
def postInc (v : Vec α) (i : It) : Option (It × It) := (add v i 1).map fun j => (i, j)

/-- `--it`, dereference_iterator.hpp L160-164. -/
def preDec (v : Vec α) (i : It) : Option It := add v i (-1)

/-- `it--`, dereference_iterator.hpp L166-171. -/
def postDec (v : Vec α) (i : It) : Option (It × It) := (add v i (-1)).map fun j => (i, j)

/-- `it1 - it2`, dereference_iterator.hpp L260-265. -/
def diff (v : Vec α) (i j : It) : Option Int := if valid v i = true ∧ valid v j = true then some ((i.pos : Int) - j.pos) else none

/-- `it1 == it2`, dereference_iterator.hpp L197-202 (`!=` L204-209 is the negation). -/
def eq (v : Vec α) (i j : It) : Option Bool := if valid v i = true ∧ valid v j = true then some (decide (i.pos = j.pos)) else none

/-- `it1 < it2`, dereference_iterator.hpp L211-216 (the others, L218-237, by exchanging and negating). -/
def lt (v : Vec α) (i j : It) : Option Bool := if valid v i = true ∧ valid v j = true then some (decide (i.pos < j.pos)) else none

/-- The element of the vector an iterator points to. -/
def element (v : Vec α) (i : It) : Option α := if valid v i = true then v.data[i.pos]? else none

end

/-- `*it`, dereference_iterator.hpp L136-139: the address of the object; null must not be dereferenced. -/
def deref (v : Vec (Option Nat)) (i : It) : Option Nat := (element v i).bind id

/-- `it->`, dereference_iterator.hpp L141-144: the pointer, which may be null. -/
def arrow (v : Vec (Option Nat)) (i : It) : Option (Option Nat) := element v i

/-- `it[n]`, dereference_iterator.hpp L131-134. -/
def index (v : Vec (Option Nat)) (i : It) (n : Int) : Option Nat := (add v i n).bind (deref v)

/-! ## The list in Python -/

/-- The iterator object that `py::make_iterator` makes, add_dictionary_to_python.cpp L59-61 (pybind11: `iterator_state`). -/
structure PyIter where
  it : It
  fin : It
  first : Bool
  deriving DecidableEq, Repr

/-- `__iter__`, add_dictionary_to_python.cpp L59-61. -/
def pyIter (v : Vec (Option Nat)) : PyIter := ⟨begin v, finish v, true⟩

/-- `__next__` of pybind11's iterator: the new state and the object (`none`: `StopIteration`). -/
def pyNext (v : Vec (Option Nat)) (s : PyIter) : Option (PyIter × Option Nat) :=
  match (if s.first then some s.it else preInc v s.it) with
  | none => none
  | some it =>
    match eq v it s.fin with
    | none => none
    | some true => some (⟨it, s.fin, true⟩, none)
    | some false =>
      match deref v it with
      | none => none
      | some a => some (⟨it, s.fin, false⟩, some a)

/-- A loop `for d in list: body`, whose body may change the list (`σ` is whatever else it changes; `none`: undefined behaviour, or
more than `fuel` repetitions). -/
def forIn {σ : Type} (body : Nat → Vec (Option Nat) × σ → Option (Vec (Option Nat) × σ)) : Nat → PyIter → Vec (Option Nat) × σ → Option (Vec (Option Nat) × σ)
  | 0, _, _ => none
  | fuel + 1, s, st =>
    match pyNext st.1 s with
    | none => none
    | some (_, none) => some st
    | some (s', some a) =>
      match body a st with
      | none => none
      | some st' => forIn body fuel s' st'

/-- `__getitem__`, add_dictionary_to_python.cpp L56-57: the index is not checked. -/
def getItem (v : Vec (Option Nat)) (i : Nat) : Option Nat := (v.data[i]?).bind id

/-- The state of a Python program: the list, the dictionaries on the heap and the holders (`none`: released). -/
structure State (D : Type) where
  list : Vec (Option Nat) := {}
  heap : List D := []
  holders : List (Option Nat) := []

/-- What a Python program may do. -/
inductive Call (D : Type)
  /-- `Dictionary.Create(name)`: a new holder. -/
  | create (d : D)
  /-- `list.append(holder)`. -/
  | append (holder : Nat)
  /-- A change of a dictionary by a reference to it. -/
  | change (address : Nat) (f : D → D)

/-- One call; the flag tells whether it raises an exception.  `Create` add_dictionary_to_python.cpp L50-52; `append` L62-64 with
`UniqueHolder::Release` define_python.hpp L47-50 (`grow` is the policy of the library). -/
def step {D : Type} (grow : Nat → Nat) (s : State D) : Call D → State D × Bool
  | .create d => ({ s with heap := s.heap ++ [d], holders := s.holders ++ [some s.heap.length] }, false)
  | .append h =>
    match s.holders[h]? with
    | some (some a) => ({ s with list := s.list.push grow (some a), holders := s.holders.set h none }, false)
    | some none => (s, true)
    | none => (s, true)
  | .change a f => ({ s with heap := s.heap.modify a f }, false)

/-- A sequence of calls. -/
def run {D : Type} (grow : Nat → Nat) (s : State D) (cs : List (Call D)) : State D := cs.foldl (fun s c => (step grow s c).1) s

end QuESo.DList
