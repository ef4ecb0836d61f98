import Verif.Model.Settings

/-!
# Specification vocabulary for the settings containers

Uses the data types of the model and, to say which key sets exist, the start-up check `initMap`.
-/
namespace QuESo.Spec
open QuESo.Settings

/-- Blank characters in a declaration. -/
def Blank (c : Char) : Prop := c = ' ' ∨ c = '\t'

/-- An identifier: not empty, without separators and blanks. -/
def PlainName (nm : Name) : Prop := nm ≠ [] ∧ ∀ c ∈ nm, c ≠ ',' ∧ ¬ Blank c

/-- The text of a declaration: names separated by commas, each with some blanks in front. -/
def declText : List (Name × Name) → Name
  | [] => []
  | [(b, nm)] => b ++ nm
  | (b, nm) :: rest => b ++ nm ++ ',' :: declText rest

/-- A declared key set: name, type and requirement of each enumerator in order. -/
abbrev Decl := List (Name × Ty × Bool)

/-- `ks` is a key set that the program registers for the declaration: the names are distinct (the compiler checks
this), the registered keys are keys of the declaration in any order, and the start-up check accepts them. -/
def Registered (decl : Decl) (ks : KeySet) : Prop :=
  (decl.map (·.1)).Nodup ∧ ∃ entries : List Key,
    (∀ k ∈ entries, ∃ nm, decl[k.index]? = some (nm, k.ty, k.required)) ∧
      initMap (decl.map (·.1)) entries = some ks

/-- Declared type of a name. -/
def declType (decl : Decl) (nm : Name) : Option Ty := (decl.find? (fun e => decide (e.1 = nm))).map (·.2.1)

variable {R : Type _}

/-- Which value a key of a type takes from an argument: integers become real numbers or, if not negative, indices;
index triples become points or index triples; everything else must have the type of the key. -/
def coerce (toDouble : Int → R) : Ty → Given R → Option (Val R)
  | .double, .int v _ => some (.double (toDouble v))
  | .index, .int v _ => if 0 ≤ v then some (.index v.toNat) else none
  | .point, .vec3i v => some (.point ⟨toDouble v.x, toDouble v.y, toDouble v.z⟩)
  | .vec3i, .vec3i v => some (.vec3i v)
  | t, .other v => if v.ty = t then some v else none
  | _, _ => none

/-- The name and value a call sets, if it is valid. -/
def effect (toDouble : Int → R) (decl : Decl) : Op R → Option (Name × Val R)
  | .setKey k v => (decl[k.index]?).map (fun e => (e.1, v))
  | .setName nm g => ((declType decl nm).bind (fun t => coerce toDouble t g)).map (fun v => (nm, v))

/-- The last value that a sequence of calls sets for a name. -/
def lastSet (toDouble : Int → R) (decl : Decl) (ops : List (Op R)) (nm : Name) : Option (Val R) :=
  ((ops.filterMap (effect toDouble decl)).reverse.find? (fun e => decide (e.1 = nm))).map (·.2)

/-- Calls that compile: a typed key is a key of the declaration and gets a value of its type; unsigned integers are
not negative; other arguments are not integers or index triples. -/
def Compiles (decl : Decl) : Op R → Prop
  | .setKey k v => v.ty = k.ty ∧ ∃ nm, decl[k.index]? = some (nm, k.ty, k.required)
  | .setName _ (.int v signed) => signed = true ∨ 0 ≤ v
  | .setName _ (.vec3i _) => True
  | .setName _ (.other v) => v.ty ≠ .index ∧ v.ty ≠ .vec3i

/-- Vectors have one place per key. -/
def KeysFit (ks : KeySet) (n : Nat) : Prop := ∃ decl, Registered decl ks ∧ decl.length = n

/-- Dictionaries as constructed by the code: one place per key at every node. -/
inductive WellFormed : Dict R → Prop
  | node {data subKeys subs listKeys lists}
      (hd : ∀ d, data = some d → KeysFit d.keys d.data.length)
      (hs : ∀ ks, subKeys = some ks → KeysFit ks subs.length)
      (hl : ∀ ks, listKeys = some ks → KeysFit ks lists.length)
      (hsub : ∀ d, some d ∈ subs → WellFormed d)
      (hlist : ∀ l, l ∈ lists → ∀ d, some d ∈ l → WellFormed d) :
      WellFormed (.node data subKeys subs listKeys lists)

/-- Something required is missing: a required value here, a sub dictionary or list entry that is not set, or
something in a sub dictionary or in a list entry. -/
inductive Missing : Dict R → Prop
  | value {d subKeys subs listKeys lists nm k} (hk : d.keys.getKey nm = some k) (hr : k.required = true)
      (hu : d.isSetName nm = .ok false) : Missing (.node (some d) subKeys subs listKeys lists)
  | subUnset {data ks subs listKeys lists nm k} (hk : ks.getKey nm = some k) (hu : subs[k.index]? = some none) :
      Missing (.node data (some ks) subs listKeys lists)
  | sub {data ks subs listKeys lists nm k d} (hk : ks.getKey nm = some k) (hu : subs[k.index]? = some (some d))
      (h : Missing d) : Missing (.node data (some ks) subs listKeys lists)
  | entryUnset {data subKeys subs ks lists nm k l} (hk : ks.getKey nm = some k) (hu : lists[k.index]? = some l)
      (hn : none ∈ l) : Missing (.node data subKeys subs (some ks) lists)
  | entry {data subKeys subs ks lists nm k l d} (hk : ks.getKey nm = some k) (hu : lists[k.index]? = some l)
      (hn : some d ∈ l) (h : Missing d) : Missing (.node data subKeys subs (some ks) lists)

end QuESo.Spec
