import Verif.Model.Basic

/-!
# Model of the settings containers

`queso/includes/keys.hpp`, `queso/containers/data_set.hpp`, `queso/containers/dictionary.hpp`.
-/
namespace QuESo.Settings

/-- Texts are lists of characters. -/
abbrev Name := List Char

/-- `NumberOfItemsDelimitedByComma`, keys.hpp L43-49. -/
def numberOfItems (s : Name) : Nat := s.foldl (fun count c => if c = ',' then count + 1 else count) 1

/-- `StrView.substr(start, i - start)`. -/
def substr (s : Name) (start i : Nat) : Name := (s.drop start).take (i - start)

/-- The loop of `CreateConstexprStringArray` from position `i`, keys.hpp L61-69; `rest` are the characters from
position `i` on, the empty list stands for `i == StrView.size()`, where the character read is the terminating zero.
The result lists the entries written, in order of `index`. -/
def splitLoop (s : Name) : Nat → Nat → List Char → List Name
  | start, i, [] => [substr s start i]
  | start, i, c :: rest =>
    if c = ' ' ∨ c = '\t' then splitLoop s (i + 1) (i + 1) rest
    else if c = ',' then substr s start i :: splitLoop s (i + 1) (i + 1) rest
    else splitLoop s start (i + 1) rest

/-- `CreateConstexprStringArray`, keys.hpp L56-71: the names of the keys.  The array has `numberOfItems` places
(L402, L404); C45 shows that exactly these are written. -/
def keyNames (s : Name) : List Name := splitLoop s 0 0 s

/-- The types of values, register_keys.hpp L23-24. -/
inductive Ty | point | vec3i | bool | double | index | string | method | grid
  deriving DecidableEq, Repr

/-- `DynamicKey`, keys.hpp L191-238: enumerator value, type and requirement.  `TargetTypeIndex` is `ty`. -/
structure Key where
  index : Nat
  ty : Ty
  required : Bool
  deriving DecidableEq, Repr

/-- `KeySetInfo` of a key set: `msEnumNames` and `msStringToKeyMap`, keys.hpp L360-410. -/
structure KeySet where
  names : List Name
  map : List (Name × Key)
  deriving DecidableEq, Repr

/-- `DynamicKey::Name()`, keys.hpp L213-215 (out of range only for an enumerator that does not exist). -/
def Key.name (names : List Name) (k : Key) : Option Name := names[k.index]?

/-- Insertion of the entries `{Key.Name(), &Key}` (`QuESo_KEY`, keys.hpp L487) in the unordered map: an entry whose
name is present already is ignored. -/
def buildMap (names : List Name) (entries : List Key) : List (Name × Key) :=
  entries.foldl (fun m k =>
    match k.name names with
    | none => m
    | some nm => if m.any (fun e => decide (e.1 = nm)) then m else m ++ [(nm, k)]) []

/-- Lookup in the map. -/
def findKey (m : List (Name × Key)) (nm : Name) : Option Key := (m.find? (fun e => decide (e.1 = nm))).map (·.2)

/-- `InitializeStringToKeyMap`, keys.hpp L467-478 (`none`: error). -/
def initMap (names : List Name) (entries : List Key) : Option KeySet :=
  let m := buildMap names entries
  if m.length ≠ names.length then none
  else if names.all (fun nm => (findKey m nm).isSome) then some ⟨names, m⟩
  else none

/-- `pGetKey`, keys.hpp L366-372. -/
def KeySet.getKey (ks : KeySet) (nm : Name) : Option Key := findKey ks.map nm

variable {R : Type _}

/-- `VariantValueType` without `std::monostate`; `R` is `double`, enumerations are numbers. -/
inductive Val (R : Type _)
  | point (v : V3 R) | vec3i (v : V3 Nat) | bool (b : Bool) | double (r : R) | index (n : Nat)
  | string (s : Name) | method (m : Nat) | grid (g : Nat)
  deriving DecidableEq, Repr

/-- The alternative held. -/
def Val.ty : Val R → Ty
  | .point _ => .point | .vec3i _ => .vec3i | .bool _ => .bool | .double _ => .double | .index _ => .index
  | .string _ => .string | .method _ => .method | .grid _ => .grid

/-- `DataSet`, data_set.hpp: `mpKeySetInfo` and `mData` (`none` is `std::monostate`). -/
structure DataSet (R : Type _) where
  keys : KeySet
  data : List (Option (Val R))

/-- Constructor, data_set.hpp L124-128. -/
def DataSet.new (ks : KeySet) : DataSet R := ⟨ks, List.replicate ks.names.length none⟩

/-- Outcome of a call: a result, a C++ exception, or undefined behaviour. -/
inductive Res (α : Type _) | ok (a : α) | error | ub
  deriving DecidableEq, Repr

/-- `mData[i] = value`. -/
def DataSet.write (d : DataSet R) (i : Nat) (v : Val R) : Res (DataSet R) :=
  if i < d.data.length then .ok { d with data := d.data.set i (some v) } else .ub

/-- `SetValue(key, value)`, data_set.hpp L153-169.  The static assertions require that the key belongs to the key set
and that the types agree; a call that violates them does not compile. -/
def DataSet.setKey (d : DataSet R) (k : Key) (v : Val R) : Res (DataSet R) := d.write k.index v

/-- The argument of the string interface: an integer of a signed or unsigned type, three indices, or a value of
another type (`other` never holds an `index` or `vec3i`). -/
inductive Given (R : Type _)
  | int (v : Int) (signed : Bool)
  | vec3i (v : V3 Nat)
  | other (v : Val R)
  deriving DecidableEq, Repr

/-- `SetValue(name, value)`, data_set.hpp L279-328.  `toDouble` is the cast of integers to `double`. -/
def DataSet.setName (toDouble : Int → R) (d : DataSet R) (nm : Name) (g : Given R) : Res (DataSet R) :=
  match d.keys.getKey nm with
  | none => .error
  | some k =>
    match g with
    | .int v signed =>
      if k.ty = .double then d.write k.index (.double (toDouble v))
      else if k.ty = .index then
        if signed ∧ v < 0 then .error else d.write k.index (.index v.toNat)
      else .error
    | .vec3i v =>
      if k.ty = .point then d.write k.index (.point ⟨toDouble v.x, toDouble v.y, toDouble v.z⟩)
      else if k.ty = .vec3i then d.write k.index (.vec3i v)
      else .error
    | .other v => if k.ty = v.ty then d.write k.index v else .error

/-- `IsSet(key)`, data_set.hpp L225-233. -/
def DataSet.isSet (d : DataSet R) (k : Key) : Res Bool :=
  match d.data[k.index]? with
  | none => .ub
  | some o => .ok o.isSome

/-- `std::get<TValueType>`: throws if another alternative is held. -/
def getAs (t : Ty) : Option (Val R) → Res (Val R)
  | none => .error
  | some v => if v.ty = t then .ok v else .error

/-- `GetRequiredValue(key)`, data_set.hpp L179-192; the requested type is the type of the key (static assertion). -/
def DataSet.getRequired (d : DataSet R) (k : Key) : Res (Val R) :=
  match d.data[k.index]? with
  | none => .ub
  | some o => getAs k.ty o

/-- `TryGetValue(key)`, data_set.hpp L202-217. -/
def DataSet.tryGet (d : DataSet R) (k : Key) : Res (Option (Val R)) :=
  match d.data[k.index]? with
  | none => .ub
  | some none => .ok none
  | some (some v) => if v.ty = k.ty then .ok (some v) else .error

/-- `GetValue<T>(name)`, data_set.hpp L336-344. -/
def DataSet.getName (d : DataSet R) (t : Ty) (nm : Name) : Res (Val R) :=
  match d.keys.getKey nm with
  | none => .error
  | some k =>
    match d.data[k.index]? with
    | none => .ub
    | some none => .error
    | some o => getAs t o

/-- `IsSet(name)`, data_set.hpp L351-357. -/
def DataSet.isSetName (d : DataSet R) (nm : Name) : Res Bool :=
  match d.keys.getKey nm with
  | none => .error
  | some k => d.isSet k

/-- `Has(name)`, data_set.hpp L363-365. -/
def DataSet.has (d : DataSet R) (nm : Name) : Bool := (d.keys.getKey nm).isSome

/-- One call after the other; stops at the first that does not succeed. -/
def seqAll {α : Type _} (f : α → Res Unit) : List α → Res Unit
  | [] => .ok ()
  | a :: l =>
    match f a with
    | .ok () => seqAll f l
    | r => r

/-- `DataSet::CheckRequired`, data_set.hpp L236-245 (`mCheckedRequired` is read by debug assertions only and left
out; the map is visited in some order). -/
def DataSet.checkRequired (d : DataSet R) : Res Unit :=
  seqAll (fun e : Name × Key =>
    if e.2.required then
      match d.data[e.2.index]? with
      | none => .ub
      | some none => .error
      | some (some _) => .ok ()
    else .ok ()) d.keys.map

/-- Calls that change a data set. -/
inductive Op (R : Type _)
  | setKey (k : Key) (v : Val R)
  | setName (nm : Name) (g : Given R)

/-- A call; an exception leaves the object as it is (the assignment is the last action of every branch). -/
def DataSet.step (toDouble : Int → R) (d : DataSet R) : Op R → DataSet R
  | .setKey k v =>
    match d.setKey k v with
    | .ok d' => d'
    | _ => d
  | .setName nm g =>
    match d.setName toDouble nm g with
    | .ok d' => d'
    | _ => d

/-- A sequence of calls. -/
def DataSet.run (toDouble : Int → R) (d : DataSet R) (ops : List (Op R)) : DataSet R := ops.foldl (DataSet.step toDouble) d

/-- `Dictionary`, dictionary.hpp L500-512: data set, sub dictionaries and lists of dictionaries with their key
sets. -/
inductive Dict (R : Type _)
  | node (data : Option (DataSet R)) (subKeys : Option KeySet) (subs : List (Option (Dict R)))
      (listKeys : Option KeySet) (lists : List (List (Option (Dict R))))

/-- What the visit of the dictionary found at a pointer: a null pointer, or a dictionary with this outcome of
`CheckRequired`. -/
abbrev Visit := Option (Res Unit)

/-- First part of `CheckRequired`, dictionary.hpp L290-292. -/
def checkData : Option (DataSet R) → Res Unit
  | none => .ok ()
  | some d => d.checkRequired

/-- Loop of `CheckRequired` over the sub dictionaries, dictionary.hpp L294-302, on what their visits found. -/
def checkSubs (subs : List Visit) : Option KeySet → Res Unit
  | none => .ok ()
  | some ks => seqAll (fun e : Name × Key =>
      match subs[e.2.index]? with
      | none => .ub
      | some none => .error
      | some (some r) => r) ks.map

/-- Inner loop of `CheckRequired` over the entries of a list, dictionary.hpp L306-312. -/
def checkEntries : List Visit → Res Unit := seqAll (fun o =>
  match o with
  | none => .error
  | some r => r)

/-- Loop of `CheckRequired` over the lists, dictionary.hpp L303-314. -/
def checkLists (lists : List (List Visit)) : Option KeySet → Res Unit
  | none => .ok ()
  | some ks => seqAll (fun e : Name × Key =>
      match lists[e.2.index]? with
      | none => .ub
      | some l => checkEntries l) ks.map

/-- `a; b`: the second call only if the first one returns. -/
def Res.andThen : Res Unit → Res Unit → Res Unit
  | .ok (), r => r
  | r, _ => r

mutual
/-- `Dictionary::CheckRequired`, dictionary.hpp L289-316.  The outcomes of the children are computed first and then
used in the order of the code; the call has no effect that is visible outside, so this makes no difference. -/
def Dict.checkRequired : Dict R → Res Unit
  | .node data subKeys subs listKeys lists =>
    (checkData data).andThen ((checkSubs (visitAll subs) subKeys).andThen (checkLists (visitLists lists) listKeys))
def visitAll : List (Option (Dict R)) → List Visit
  | [] => []
  | none :: l => none :: visitAll l
  | some d :: l => some d.checkRequired :: visitAll l
def visitLists : List (List (Option (Dict R))) → List (List Visit)
  | [] => []
  | x :: l => visitAll x :: visitLists l
end

end QuESo.Settings
