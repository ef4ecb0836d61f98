import Verif.Model.Json
import Verif.Spec.Settings

/-!
# Specification vocabulary for settings files
-/
namespace QuESo.Spec
open QuESo.Settings QuESo.Json

/-- A number rounded to ten significant digits: the nearest multiple of the unit of its tenth digit. -/
def tenSignificant (q : ℚ) : ℚ :=
  let unit : ℚ := 10 ^ (Int.log 10 |q| - 9)
  if q < 0 then -(roundNat (|q| / unit) * unit) else roundNat (|q| / unit) * unit

/-- A number as JSON value: an integer if the rounded number is whole and has at most ten digits, else a number with a
fraction or exponent, which Python rounds to the next `double` with `rnd`. -/
def numJson (rnd : ℚ → ℚ) (q : ℚ) : Json :=
  if (tenSignificant q).den = 1 ∧ (tenSignificant q).num.natAbs < 10 ^ 10 then .int (tenSignificant q).num
  else .float (rnd (tenSignificant q))

/-- The number rounded to ten digits is a whole number below zero with at most ten digits: it is written like `-5`. -/
def NegativeWhole (q : ℚ) : Prop :=
  tenSignificant q < 0 ∧ (tenSignificant q).den = 1 ∧ (tenSignificant q).num.natAbs < 10 ^ 10

/-- What a JSON reader makes of characters between quotation marks (RFC 8259, section 7, without `\u`). -/
def asRead : Text → Option Text
  | [] => some []
  | '\\' :: c :: t => (escape c).bind fun d => (asRead t).map (d :: ·)
  | ['\\'] => none
  | '"' :: _ => none
  | c :: t => if c.toNat < 32 then none else (asRead t).map (c :: ·)

/-- Texts that stand for themselves between quotation marks: no quotation mark, backslash or control character. -/
def PlainText (t : Text) : Prop := ∀ c ∈ t, c ≠ '"' ∧ c ≠ '\\' ∧ 32 ≤ c.toNat

/-- The JSON value of a place in a data set. -/
def valJson (rnd : ℚ → ℚ) : Option (Val ℚ) → Json
  | none => .str "Not Set.".toList
  | some (.point v) => .list [numJson rnd v.x, numJson rnd v.y, numJson rnd v.z]
  | some (.vec3i v) => .list [.int v.x, .int v.y, .int v.z]
  | some (.index n) => .int n
  | some (.double q) => numJson rnd q
  | some (.string s) => .str ((asRead s).getD [])
  | some (.bool b) => .bool b
  | some (.method m) => .str (methodText m)
  | some (.grid g) => .str (gridText g)

/-- The members for the values. -/
def dataMembers (rnd : ℚ → ℚ) : Option (DataSet ℚ) → List (Name × Json)
  | none => []
  | some d => d.keys.map.map fun e => (e.1, valJson rnd ((d.data[e.2.index]?).getD none))

/-- The members for the sub dictionaries: one object each. -/
def subMembers (subs : List (List (Name × Json))) : Option KeySet → List (Name × Json)
  | none => []
  | some ks => ks.map.map fun e => (e.1, .obj ((subs[e.2.index]?).getD []))

/-- The members for the lists: one list of objects each. -/
def listMembers (lists : List (List (List (Name × Json)))) : Option KeySet → List (Name × Json)
  | none => []
  | some ks => ks.map.map fun e => (e.1, .list (((lists[e.2.index]?).getD []).map .obj))

mutual
/-- The members of the JSON object that represents a dictionary: one for each value, sub dictionary and list, under the
name of its key. -/
def dictMembers (rnd : ℚ → ℚ) : Dict ℚ → List (Name × Json)
  | .node data subKeys subs listKeys lists =>
    dataMembers rnd data ++ subMembers (allMembers rnd subs) subKeys ++ listMembers (allLists rnd lists) listKeys
def allMembers (rnd : ℚ → ℚ) : List (Option (Dict ℚ)) → List (List (Name × Json))
  | [] => []
  | none :: l => [] :: allMembers rnd l
  | some d :: l => dictMembers rnd d :: allMembers rnd l
def allLists (rnd : ℚ → ℚ) : List (List (Option (Dict ℚ))) → List (List (List (Name × Json)))
  | [] => []
  | x :: l => allMembers rnd x :: allLists rnd l
end

/-- All names of a dictionary: of values, sub dictionaries and lists. -/
def memberNames (data : Option (DataSet ℚ)) (subKeys listKeys : Option KeySet) : List Name :=
  ((data.map (·.keys.map)).getD [] ++ (subKeys.map (·.map)).getD [] ++ (listKeys.map (·.map)).getD []).map (·.1)

/-- A value that can be written: a text that JSON readers understand. -/
def WritableVal : Option (Val ℚ) → Prop
  | some (.string s) => (asRead s).isSome
  | _ => True

/-- Dictionaries as the code makes them: the constructor gives one place to each key (dictionary.hpp L117-137), the names
of the keys are identifiers and no two keys of a dictionary have the same name; lists hold no null pointers; and texts
are such that JSON readers understand them. -/
inductive Writable : Dict ℚ → Prop
  | node {data subKeys subs listKeys lists}
      (hd : ∀ d, data = some d → KeysFit d.keys d.data.length)
      (hs : ∀ ks, subKeys = some ks → KeysFit ks subs.length)
      (hl : ∀ ks, listKeys = some ks → KeysFit ks lists.length)
      (hs0 : subKeys = none → subs = []) (hl0 : listKeys = none → lists = [])
      (hnames : (memberNames data subKeys listKeys).Nodup)
      (hplain : ∀ nm ∈ memberNames data subKeys listKeys, PlainText nm)
      (hvals : ∀ d, data = some d → ∀ o ∈ d.data, WritableVal o)
      (hsub : ∀ d, some d ∈ subs → Writable d)
      (hnull : ∀ l, l ∈ lists → none ∉ l)
      (hlist : ∀ l, l ∈ lists → ∀ d, some d ∈ l → Writable d) :
      Writable (.node data subKeys subs listKeys lists)

/-! ## Reading back -/

/-- A value after writing and reading: numbers are rounded to ten digits and then to the next `double`; texts are read as
a JSON reader reads them. -/
def valBack (rnd : ℚ → ℚ) : Val ℚ → Val ℚ
  | .double q => .double (rnd (tenSignificant q))
  | .point v => .point ⟨rnd (tenSignificant v.x), rnd (tenSignificant v.y), rnd (tenSignificant v.z)⟩
  | .string s => .string ((asRead s).getD [])
  | v => v

mutual
/-- The dictionary with all values as after writing and reading, and all else as it is. -/
def dictBack (rnd : ℚ → ℚ) : Dict ℚ → Dict ℚ
  | .node data subKeys subs listKeys lists =>
    .node (data.map fun d => ⟨d.keys, d.data.map (Option.map (valBack rnd))⟩) subKeys (backAll rnd subs) listKeys
      (backLists rnd lists)
def backAll (rnd : ℚ → ℚ) : List (Option (Dict ℚ)) → List (Option (Dict ℚ))
  | [] => []
  | none :: l => none :: backAll rnd l
  | some d :: l => some (dictBack rnd d) :: backAll rnd l
def backLists (rnd : ℚ → ℚ) : List (List (Option (Dict ℚ))) → List (List (Option (Dict ℚ)))
  | [] => []
  | x :: l => backAll rnd x :: backLists rnd l
end

/-- Values that can be read: indices fit 64 bits, texts are readable and different from the text for values that are not
set, enumerators exist, and numbers are not written like `-5`. -/
def ReadableVal : Val ℚ → Prop
  | .index n => n < 2 ^ 64
  | .vec3i v => v.x < 2 ^ 64 ∧ v.y < 2 ^ 64 ∧ v.z < 2 ^ 64
  | .double q => ¬ NegativeWhole q
  | .string s => ∃ r, asRead s = some r ∧ r ≠ "Not Set.".toList
  | .method m => m < 6
  | .grid g => g < 2
  | _ => True

/-- The reader recognises enumerations by the names of their keys. -/
def EnumKeys (ks : KeySet) : Prop :=
  ∀ e ∈ ks.map, (e.2.ty = .method ↔ e.1 = "integration_method".toList) ∧ (e.2.ty = .grid ↔ e.1 = "grid_type".toList)

/-- This holds for the keys of a dictionary and of all dictionaries in it. -/
inductive EnumDict : Dict ℚ → Prop
  | node {data subKeys subs listKeys lists}
      (hkeys : ∀ d, data = some d → EnumKeys d.keys)
      (hsub : ∀ d, some d ∈ subs → EnumDict d)
      (hlist : ∀ l, l ∈ lists → ∀ d, some d ∈ l → EnumDict d) :
      EnumDict (.node data subKeys subs listKeys lists)

/-- `P` holds for all values of a dictionary and of all dictionaries in it. -/
inductive AllVals (P : Val ℚ → Prop) : Dict ℚ → Prop
  | node {data subKeys subs listKeys lists}
      (hvals : ∀ d, data = some d → ∀ v, some v ∈ d.data → P v)
      (hsub : ∀ d, some d ∈ subs → AllVals P d)
      (hlist : ∀ l, l ∈ lists → ∀ d, some d ∈ l → AllVals P d) :
      AllVals P (.node data subKeys subs listKeys lists)

/-- Dictionaries that can be read: all values can be read, and no list is empty. -/
inductive Readable : Dict ℚ → Prop
  | node {data subKeys subs listKeys lists}
      (hvals : ∀ d, data = some d → ∀ v, some v ∈ d.data → ReadableVal v)
      (hne : [] ∉ lists)
      (hsub : ∀ d, some d ∈ subs → Readable d)
      (hlist : ∀ l, l ∈ lists → ∀ d, some d ∈ l → Readable d) :
      Readable (.node data subKeys subs listKeys lists)

/-- Data sets made from a given one by setting values: same keys; what was set remains set; values have the types of
their keys. -/
def DataOf : Option (DataSet ℚ) → Option (DataSet ℚ) → Prop
  | none, none => True
  | some b, some d => d.keys = b.keys ∧ d.data.length = b.data.length ∧
      (∀ (i : Nat) v, b.data[i]? = some (some v) → ∃ w, d.data[i]? = some (some w)) ∧
      ∀ e ∈ d.keys.map, ∀ v, d.data[e.2.index]? = some (some v) → v.ty = e.2.ty
  | _, _ => False

/-- `SettingsOf cond b d`: the dictionary `d` is made from `b` by setting values and by appending dictionaries to lists
that are empty in `b`; these are made from `cond`. -/
inductive SettingsOf (cond : Dict ℚ) : Dict ℚ → Dict ℚ → Prop
  | node {bdata data subKeys bsubs subs listKeys blists lists}
      (hdata : DataOf bdata data) (hlen : bsubs.length = subs.length) (hb : none ∉ bsubs) (hs : none ∉ subs)
      (hsub : ∀ (i : Nat) b d, bsubs[i]? = some (some b) → subs[i]? = some (some d) → SettingsOf cond b d)
      (hempty : blists = lists.map fun _ => []) (hnull : ∀ l, l ∈ lists → none ∉ l)
      (hlist : ∀ l, l ∈ lists → ∀ d, some d ∈ l → SettingsOf cond cond d) :
      SettingsOf cond (.node bdata subKeys bsubs listKeys blists) (.node data subKeys subs listKeys lists)

end QuESo.Spec
