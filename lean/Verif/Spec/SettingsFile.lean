import Verif.Spec.SettingsFactory

/-!
# Specification vocabulary for settings files written by hand
-/
namespace QuESo.Spec
open QuESo.Settings QuESo.Json

/-- The text for values that are not set. -/
def notSet : Json → Bool
  | .str s => decide (s = "Not Set.".toList)
  | _ => false

/-- A number; whole numbers are rounded to the next `double`, truth values count as one and zero. -/
def asNumber (rnd : ℚ → ℚ) : Json → Option ℚ
  | .float q => some q
  | .int z => some (rnd z)
  | .bool b => some (if b then 1 else 0)
  | _ => none

/-- An index: a whole number that fits 64 bits without sign; truth values count as one and zero. -/
def asIndex : Json → Option Nat
  | .int z => if 0 ≤ z ∧ z < 2 ^ 64 then some z.toNat else none
  | .bool b => some (if b then 1 else 0)
  | _ => none

/-- The names of the integration methods and of the grid types, in the order of the enumerators. -/
def methodNames : List String := ["Gauss", "Gauss_Reduced1", "Gauss_Reduced2", "GGQ_Optimal", "GGQ_Reduced1", "GGQ_Reduced2"]
def gridNames : List String := ["b_spline_grid", "hexahedral_fe_grid"]

/-- The value that a JSON value gives to a key of this type; `none`: it does not suit the type. -/
def fileValue (rnd : ℚ → ℚ) : Ty → Json → Option (Val ℚ)
  | .double, .float q => some (.double q)
  | .double, .int z => if 0 ≤ z ∧ z < 2 ^ 64 then some (.double (rnd z)) else none
  | .index, .int z => if 0 ≤ z ∧ z < 2 ^ 64 then some (.index z.toNat) else none
  | .bool, .bool b => some (.bool b)
  | .bool, .null => some (.bool false)
  | .bool, .int z => if 0 ≤ z ∧ z < 2 ^ 64 then none else some (.bool true)
  | .string, .str s => some (.string s)
  | .method, .str s => (methodNames.findIdx? fun n => decide (n.toList = s)).map .method
  | .grid, .str s => (gridNames.findIdx? fun n => decide (n.toList = s)).map .grid
  | .point, .list [a, b, c] =>
    match asNumber rnd a, asNumber rnd b, asNumber rnd c with
    | some x, some y, some z => some (.point ⟨x, y, z⟩)
    | _, _, _ => none
  | .vec3i, .list [a, b, c] =>
    match asIndex a, asIndex b, asIndex c with
    | some x, some y, some z => some (.vec3i ⟨x, y, z⟩)
    | _, _, _ => none
  | _, _ => none

/-- The member of an object with this name. -/
def member (l : List (Name × Json)) (nm : Name) : Option Json := (l.find? fun e => decide (e.1 = nm)).map (·.2)

/-- The members of a value that is an object. -/
def membersOf : Json → List (Name × Json)
  | .obj l => l
  | _ => []

/-- The elements of a value that is a list. -/
def elementsOf : Json → List Json
  | .list l => l
  | _ => []

/-- A section can be read: every member is the text for values that are not set, or has the name of a key and suits its
type. -/
def SectionOk (rnd : ℚ → ℚ) (decl : Decl) (l : List (Name × Json)) : Prop :=
  ∀ e ∈ l, notSet e.2 = true ∨ ∃ t v, declType decl e.1 = some t ∧ fileValue rnd t e.2 = some v

/-- The value a section gives to a name, if any. -/
def sectionValue (rnd : ℚ → ℚ) (decl : Decl) (l : List (Name × Json)) (nm : Name) : Option (Val ℚ) :=
  (member l nm).bind fun j => if notSet j = true then none else (declType decl nm).bind fun t => fileValue rnd t j

/-- The sections and their keys. -/
def sections : List (String × Decl) :=
  [("general_settings", generalDecl), ("background_grid_settings", gridDecl),
   ("trimmed_quadrature_rule_settings", trimmedDecl), ("non_trimmed_quadrature_rule_settings", nonTrimmedDecl)]

/-- The name of the list of conditions. -/
def conditionsName : String := "conditions_settings_list"

/-- A settings file can be read: every member of the outermost object is a section that can be read, or a list of
conditions, not empty, that can be read, or the text for values that are not set. -/
def FileOk (rnd : ℚ → ℚ) (ms : List (Name × Json)) : Prop :=
  ∀ e ∈ ms, notSet e.2 = true ∨
    (∃ s ∈ sections, e.1 = s.1.toList ∧ ∃ l, e.2 = .obj l ∧ SectionOk rnd s.2 l) ∨
    (e.1 = conditionsName.toList ∧ ∃ cs, e.2 = .list cs ∧ cs ≠ [] ∧ ∀ c ∈ cs, ∃ l, c = .obj l ∧ SectionOk rnd conditionDecl l)

/-- The members of a section in a file; none if the section is missing. -/
def sectionIn (ms : List (Name × Json)) (nm : Name) : List (Name × Json) := ((member ms nm).map membersOf).getD []

/-- The conditions in a file, each with its members. -/
def conditionsIn (ms : List (Name × Json)) : List (List (Name × Json)) :=
  ((member ms conditionsName.toList).map fun j => (elementsOf j).map membersOf).getD []

end QuESo.Spec
