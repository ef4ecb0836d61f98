import Verif.Model.Basic

/-!
# Model of the lifetimes of Python objects

`queso/python/bindings/add_containers_to_python.cpp`, `add_dictionary_to_python.cpp`, `dictionary_binder_helper.hpp` and `define_python.hpp` with the rules of
pybind11 (`external_libraries/pybind11`): which Python object keeps which other one alive, who owns the memory of the library, and who uses it.

Every Python object of a class of the library is a wrapper.  Wrappers are numbered in the order in which they are made.  Memory of the library is
divided into parts (numbered as well) that are owned and freed as a whole: the settings made by one call of `Create`, the content of one model, and a mesh
made in Python.  Simplifications: the content of a model does not change after objects were taken from it; memory that was freed is not used again for
another object; the reference counts of Python are exact (no cycles), so an object is deleted at once when it is not needed any more; nothing else of Python is modelled.
-/
namespace QuESo.Life

/-- The classes, add_containers_to_python.cpp L84-291, add_dictionary_to_python.cpp L38-65; the iterators of pybind11 one for each class of container;
`pyList` is a list of Python. -/
inductive Kind
  | holder | dictionary | dictList | dictIter | model | element | points | pointIter | point | condition | segments | segIter | segment | mesh | triIter
  | triangle | grid | pyList
  deriving DecidableEq, Repr

/-- Calls that hand out an object. -/
inductive Call
  /-- `DictionaryHolder.GetObject` -/
  | getObject
  /-- `Dictionary.__getitem__` -/
  | sub (k : Nat)
  /-- `Dictionary.GetList` -/
  | getList (k : Nat)
  /-- `DictionaryList.__getitem__`, `__iter__` and `__next__` of the iterator -/
  | listItem (i : Nat) | listIter | listNext (i : Nat)
  /-- `EmbeddedModel.GetSettings`, `GetModelInfo` -/
  | settings | info
  /-- An entry of `EmbeddedModel.GetElements()` -/
  | elements (i : Nat)
  /-- `Element.GetIntegrationPoints`, and access to the points as for lists -/
  | elementPoints | pointItem (i : Nat) | pointIter | pointNext (i : Nat)
  /-- An entry of `EmbeddedModel.GetConditions()` -/
  | conditions (i : Nat)
  /-- `Condition.GetSettings` -/
  | conditionSettings
  /-- `Condition.GetSegments`, and access to the segments as for lists -/
  | segments | segmentItem (i : Nat) | segmentIter | segmentNext (i : Nat)
  /-- `ConditionSegment.GetTriangleMesh` -/
  | segmentMesh
  /-- `TriangleMesh.Triangles` and `__next__` of the iterator -/
  | triangles | triangleNext (i : Nat)
  /-- `BackgroundGrid.GetElements` -/
  | gridElements
  deriving DecidableEq, Repr

/-- How the object is handed out: a copy or a new object, the same with `keep_alive<0, 1>`, or a reference with `reference_internal`. -/
inductive Policy | value | valueKeep | internal
  deriving DecidableEq, Repr

/-- The class on which a call is made. -/
def Call.source : Call → Kind
  | .getObject => .holder
  | .sub _ | .getList _ => .dictionary
  | .listItem _ | .listIter => .dictList
  | .listNext _ => .dictIter
  | .settings | .info | .elements _ | .conditions _ => .model
  | .elementPoints => .element
  | .pointItem _ | .pointIter => .points
  | .pointNext _ => .pointIter
  | .conditionSettings | .segments => .condition
  | .segmentItem _ | .segmentIter => .segments
  | .segmentNext _ => .segIter
  | .segmentMesh => .segment
  | .triangles => .mesh
  | .triangleNext _ => .triIter
  | .gridElements => .grid

/-- The class of the result. -/
def Call.result : Call → Kind
  | .getObject | .sub _ | .listItem _ | .listNext _ | .settings | .info | .conditionSettings => .dictionary
  | .getList _ => .dictList
  | .listIter => .dictIter
  | .elements _ => .element
  | .conditions _ => .condition
  | .elementPoints => .points
  | .pointItem _ | .pointNext _ => .point
  | .pointIter => .pointIter
  | .segments => .segments
  | .segmentItem _ | .segmentNext _ => .segment
  | .segmentIter => .segIter
  | .segmentMesh => .mesh
  | .triangles => .triIter
  | .triangleNext _ => .triangle
  | .gridElements => .pyList

/-- How a call hands out its result.  `GetObject` add_dictionary_to_python.cpp L39; sections and lists dictionary_binder_helper.hpp L34-41; list
L56-61; settings, info and conditions add_containers_to_python.cpp L286-289 (the entries of the list of conditions with the policy of the call, pybind11
stl.h L172-188); elements L278-285 (copies, stl.h L174-176); points L212-214 and pybind11 stl_bind.h L328-344; `GetSettings` and `GetSegments` of conditions L260-261; segments
L249-254 (no `keep_alive` for the iterator); mesh L244; triangles L192-194 and L86-91 (no `keep_alive`); grid L227-237.  Items of iterators of pybind11: `reference_internal`,
pybind11.h L2343-2359 and L2368. -/
def Call.policy : Call → Policy
  | .elements _ | .segmentIter | .triangleNext _ => .value
  | .listIter | .pointIter | .triangles | .gridElements => .valueKeep
  | _ => .internal

/-- Where an object is in a part of the memory. -/
inductive Step
  | sub (k : Nat) | list (k : Nat) | item (i : Nat) | info | elem (i : Nat) | points | cond (i : Nat) | segs | mesh | tri (i : Nat)
  deriving DecidableEq, Repr

/-- A Python object: its class, the memory it uses, the objects it keeps alive (directly, or by an object it keeps alive), and whether the program
holds it.  pybind11: `instance`, `patients`. -/
structure Wrapper where
  kind : Kind
  part : Nat
  path : List Step
  keeps : List Nat
  held : Bool
  deriving DecidableEq, Repr

/-- Who owns a part of the memory: it was freed, a Python object, or only the part itself (it is never freed). -/
inductive Owner | freed | wrapper (i : Nat) | itself
  deriving DecidableEq, Repr

/-- A part of the memory: who owns it, and for the content of a model its settings. -/
structure Part where
  owner : Owner
  settings : Option Nat
  deriving DecidableEq, Repr

/-- The state of a program; `entries` are the entries of lists of dictionaries: part and place of the list, and the part of the entry. -/
structure State where
  wrappers : List Wrapper := []
  parts : List Part := []
  entries : List (Nat × List Step × Nat) := []
  deriving DecidableEq, Repr

/-- Whether an object exists: the program holds it, or something that keeps it alive. -/
def State.alive (s : State) (i : Nat) : Bool :=
  s.wrappers.any (fun w => w.held && w.keeps.contains i) || (match s.wrappers[i]? with | some w => w.held | none => false)

/-- Whether the owner of a part of the memory exists. -/
def State.exists (s : State) : Owner → Bool
  | .freed => false
  | .wrapper o => s.alive o
  | .itself => true

/-- Whether a part of the memory was not freed. -/
def State.usable (s : State) (part : Nat) : Bool :=
  match s.parts[part]? with
  | some p => s.exists p.owner
  | none => false

/-- The key of `conditions_settings_list`, `queso/includes/register_keys.hpp`. -/
def conditionsList : Nat := 0

/-- The entries of a list of dictionaries, in order. -/
def State.listOf (s : State) (part : Nat) (path : List Step) : List Nat :=
  (s.entries.filter fun e => decide (e.1 = part ∧ e.2.1 = path)).map fun e => e.2.2

/-- The memory that the result of a call uses (`none`: there is no such entry). -/
def State.target (s : State) (w : Wrapper) : Call → Option (Nat × List Step)
  | .getObject => some (w.part, [])
  | .sub k => some (w.part, w.path ++ [.sub k])
  | .getList k => some (w.part, w.path ++ [.list k])
  | .listIter => some (w.part, w.path)
  | .listItem i | .listNext i =>
    match s.parts[w.part]? with
    | some ⟨_, some _⟩ => some (w.part, w.path ++ [.item i])
    | _ => ((s.listOf w.part w.path)[i]?).map fun e => (e, [])
  | .settings =>
    match s.parts[w.part]? with
    | some ⟨_, some r⟩ => some (r, [])
    | _ => none
  | .info => some (w.part, [.info])
  | .elements i => some (w.part, [.elem i])
  | .elementPoints => some (w.part, w.path ++ [.points])
  | .pointItem i | .pointNext i => some (w.part, w.path ++ [.item i])
  | .pointIter => some (w.part, w.path)
  | .conditions i => some (w.part, [.cond i])
  | .conditionSettings =>
    match s.parts[w.part]?, w.path with
    | some ⟨_, some r⟩, [.cond i] => ((s.listOf r [.list conditionsList])[i]?).map fun e => (e, [])
    | _, _ => none
  | .segments => some (w.part, w.path ++ [.segs])
  | .segmentItem i | .segmentNext i => some (w.part, w.path ++ [.item i])
  | .segmentIter => some (w.part, w.path)
  | .segmentMesh => some (w.part, w.path ++ [.mesh])
  | .triangles => some (w.part, w.path)
  | .triangleNext i => some (w.part, w.path ++ [.tri i])
  | .gridElements => some (w.part, [])

/-- What a program may do. -/
inductive Op
  /-- `Dictionary.Create` -/
  | newHolder
  /-- `TriangleMesh()` -/
  | newMesh
  /-- `BackgroundGrid(settings)`; it copies what it needs -/
  | newGrid
  /-- `EmbeddedModel(holder)`; `ok`: the check of the settings succeeds -/
  | build (holder : Nat) (ok : Bool)
  /-- `list.append(holder)` -/
  | append (list holder : Nat)
  | get (c : Call) (source : Nat)
  /-- The program gives up its references to an object. -/
  | release (i : Nat)
  /-- Any other call on an object that reads from the memory it uses. -/
  | use (i : Nat)
  deriving DecidableEq, Repr

/-- What happens: nothing special, an object is handed out, an exception, or undefined behaviour (freed memory is used). -/
inductive Out | done | object (i : Nat) | raised | ub
  deriving DecidableEq, Repr

/-- A new wrapper. -/
def State.push (s : State) (w : Wrapper) : State × Out := ({ s with wrappers := s.wrappers ++ [w] }, .object s.wrappers.length)

/-- A new wrapper that owns a new part of the memory. -/
def State.pushOwner (s : State) (k : Kind) (settings : Option Nat) : State × Out :=
  State.push { s with parts := s.parts ++ [⟨.wrapper s.wrappers.length, settings⟩] } ⟨k, s.parts.length, [], [], true⟩

/-- What `h` owns gets another owner. -/
def handOver (h : Nat) (to : Owner) (parts : List Part) : List Part :=
  parts.map fun p => if p.owner = .wrapper h then { p with owner := to } else p

/-- Whether the holder still has its settings, define_python.hpp L40-50. -/
def State.full (s : State) (h : Nat) (w : Wrapper) : Bool :=
  match s.parts[w.part]? with
  | some p => decide (p.owner = .wrapper h)
  | none => false

/-- The wrapper that exists already for an object, pybind11 detail/type_caster_base.h L524-526. -/
def State.registered (s : State) (k : Kind) (part : Nat) (path : List Step) : Option Nat :=
  (List.range s.wrappers.length).find? fun j =>
    match s.wrappers[j]? with
    | some w => decide (w.kind = k ∧ w.part = part ∧ w.path = path) && s.alive j
    | none => false

/-- Handing out the result of a call on the object `i`, pybind11 detail/type_caster_base.h L508-600 and `keep_alive_impl` pybind11.h L2188-2216: a list of Python
is no registered type and there are no weak references to lists, so that `keep_alive` for a list raises an exception. -/
def State.handOut (s : State) (i : Nat) (w : Wrapper) (c : Call) (part : Nat) (path : List Step) : State × Out :=
  match c.policy with
  | .value => s.push ⟨c.result, part, path, [], true⟩
  | .valueKeep => if c.result = .pyList then (s, .raised) else s.push ⟨c.result, part, path, i :: w.keeps, true⟩
  | .internal =>
    match s.registered c.result part path with
    | some j => ({ s with wrappers := s.wrappers.modify j fun v => { v with held := true } }, .object j)
    | none => s.push ⟨c.result, part, path, i :: w.keeps, true⟩

/-- One action of a program.  A program cannot use an object that it does not hold, or as an object of another class (exception).  A new model takes
the settings, add_containers_to_python.cpp L274-276 and embedded_model.h L62-65: if the check fails they are deleted on the way.  `append`
add_dictionary_to_python.cpp L62-64; a dictionary that is put into one of its own lists is owned by nobody else. -/
def State.step (s : State) : Op → State × Out
  | .newHolder => s.pushOwner .holder none
  | .newMesh => s.pushOwner .mesh none
  | .newGrid => s.pushOwner .grid none
  | .build h ok =>
    match s.wrappers[h]? with
    | some w =>
      if w.held && decide (w.kind = .holder) && s.full h w then
        if ok then State.pushOwner { s with parts := handOver h (.wrapper s.wrappers.length) s.parts } .model (some w.part)
        else ({ s with parts := handOver h .freed s.parts }, .raised)
      else (s, .raised)
    | none => (s, .raised)
  | .append l h =>
    match s.wrappers[l]?, s.wrappers[h]? with
    | some v, some w =>
      if v.held && decide (v.kind = .dictList) && w.held && decide (w.kind = .holder) && s.full h w then
        match s.parts[v.part]? with
        | some p =>
          if s.exists p.owner then
            ({ s with parts := handOver h (if p.owner = .wrapper h then .itself else p.owner) s.parts, entries := s.entries ++ [(v.part, v.path, w.part)] }, .done)
          else (s, .ub)
        | none => (s, .ub)
      else (s, .raised)
    | _, _ => (s, .raised)
  | .get c i =>
    match s.wrappers[i]? with
    | some w =>
      if w.held && decide (w.kind = c.source) then
        if w.kind = .holder ∧ s.full i w = false then (s, .raised)
        else if s.usable w.part then
          match s.target w c with
          | some (part, path) => s.handOut i w c part path
          | none => (s, .raised)
        else (s, .ub)
      else (s, .raised)
    | none => (s, .raised)
  | .release i => ({ s with wrappers := s.wrappers.modify i fun v => { v with held := false } }, .done)
  | .use i =>
    match s.wrappers[i]? with
    | some w =>
      if w.held then (if w.kind = .holder then (s, .done) else if s.usable w.part then (s, .done) else (s, .ub))
      else (s, .raised)
    | none => (s, .raised)

/-- A whole program: what happens, step by step.  After undefined behaviour nothing is said. -/
def State.run (s : State) : List Op → List Out
  | [] => []
  | o :: os =>
    match s.step o with
    | (_, .ub) => [.ub]
    | (s', r) => r :: s'.run os

end QuESo.Life
