import Verif.Model.Json

/-!
# Model of the creation of settings and of the calls that change them

`queso/includes/register_keys.hpp`, `queso/includes/dictionary_factory.hpp` and the bindings in
`queso/python/bindings` (`dictionary_binder_helper.hpp`, `add_dictionary_to_python.cpp`).  Dictionaries for results
(`ModelInfo`, `ConditionInfo`) are left out here.
-/
namespace QuESo.Json
open QuESo.Settings

/-- A declared key: name, type and requirement. -/
abbrev KeyDecl := Name × Ty × Bool

/-- Keys of objects (sub dictionaries and lists) have no type of values; it is never used. -/
def objectKey (nm : String) : KeyDecl := (nm.toList, .index, false)

/-- `MainSettings`, sub dictionaries, register_keys.hpp L37-48. -/
def mainSubDecl : List KeyDecl := [objectKey "general_settings", objectKey "background_grid_settings",
  objectKey "trimmed_quadrature_rule_settings", objectKey "non_trimmed_quadrature_rule_settings"]

/-- `MainSettings`, lists, register_keys.hpp L50-55. -/
def mainListDecl : List KeyDecl := [objectKey "conditions_settings_list"]

/-- `GeneralSettings`, register_keys.hpp L59-70. -/
def generalDecl : List KeyDecl := [("input_filename".toList, .string, true), ("output_directory_name".toList, .string, true),
  ("echo_level".toList, .index, true), ("write_output_to_file".toList, .bool, true)]

/-- `BackgroundGridSettings`, register_keys.hpp L74-91. -/
def gridDecl : List KeyDecl := [("grid_type".toList, .grid, true), ("lower_bound_xyz".toList, .point, true),
  ("upper_bound_xyz".toList, .point, true), ("lower_bound_uvw".toList, .point, true), ("upper_bound_uvw".toList, .point, true),
  ("polynomial_order".toList, .vec3i, true), ("number_of_elements".toList, .vec3i, true)]

/-- `TrimmedQuadratureRuleSettings`, register_keys.hpp L95-108. -/
def trimmedDecl : List KeyDecl := [("moment_fitting_residual".toList, .double, true), ("min_element_volume_ratio".toList, .double, true),
  ("min_num_boundary_triangles".toList, .index, true), ("neglect_elements_if_stl_is_flawed".toList, .bool, true),
  ("activate_fictitious_domain_with_alpha".toList, .double, false)]

/-- `NonTrimmedQuadratureRuleSettings`, register_keys.hpp L112-117. -/
def nonTrimmedDecl : List KeyDecl := [("integration_method".toList, .method, true)]

/-- `ConditionSettings`, register_keys.hpp L121-138. -/
def conditionDecl : List KeyDecl := [("condition_id".toList, .index, true), ("condition_type".toList, .string, false),
  ("input_filename".toList, .string, true), ("modulus".toList, .double, false), ("direction".toList, .point, false),
  ("value".toList, .point, false), ("penalty_factor".toList, .double, false)]

/-- The registered key sets.  The order of the entries of an unordered map is not specified, so they are parameters. -/
structure SettingsKeys where
  mainSub : KeySet
  mainList : KeySet
  general : KeySet
  grid : KeySet
  trimmed : KeySet
  nonTrimmed : KeySet
  condition : KeySet

/-- A dictionary with values only: the constructor, dictionary.hpp L117-137, followed by `SetValue` of some keys (index
and value). -/
def valuesOnly (ks : KeySet) : List (Nat × Val ℚ) → Res (Dict ℚ)
  | [] => .ok (.node (some (DataSet.new ks)) none [] none [])
  | (i, v) :: l => (valuesOnly ks l).bind fun d =>
    match d with
    | .node (some ds) sk s lk li => (ds.setKey ⟨i, v.ty, true⟩ v).bind fun ds' => .ok (.node (some ds') sk s lk li)
    | .node none _ _ _ _ => .error

/-- `CreateSettings`, dictionary_factory.hpp L33-93.  `rnd` rounds a literal to the next `double`.  The values are set in
the order of the list from the end; they have different keys. -/
def createSettings (rnd : ℚ → ℚ) (ks : SettingsKeys) : Res (Dict ℚ) :=
  (valuesOnly ks.general [(3, .bool true), (2, .index 1), (1, .string "queso_output".toList)]).bind fun general =>
  (valuesOnly ks.grid []).bind fun grid =>
  (valuesOnly ks.trimmed [(3, .bool true), (2, .index 100), (1, .double (rnd (1 / 10 ^ 3))),
    (0, .double (rnd (1 / 10 ^ 10)))]).bind fun trimmed =>
  (valuesOnly ks.nonTrimmed [(0, .method 0)]).bind fun nonTrimmed =>
  .ok (.node none (some ks.mainSub) [some general, some grid, some trimmed, some nonTrimmed] (some ks.mainList) [[]])

/-- `CreateConditionSettings`, dictionary_factory.hpp L97-107. -/
def createCondition (ks : SettingsKeys) : Res (Dict ℚ) := valuesOnly ks.condition []

/-! ## Calls that change settings -/

/-- Calls from Python: `SetValue(name, value)`; `GetList(name).append(dictionary)`; a call on `settings[name]`; a call
on `GetList(name)[i]`. -/
inductive Edit
  | set (nm : Name) (g : Given ℚ)
  | append (nm : Name) (c : Dict ℚ)
  | sub (nm : Name) (e : Edit)
  | entry (nm : Name) (i : Nat) (e : Edit)

/-- A change of an entry of a list: `GetList(name)[i]`, add_dictionary_to_python.cpp L56-57; the index is not checked. -/
def onEntry (nm : Name) (i : Nat) (f : Dict ℚ → Res (Dict ℚ)) : Dict ℚ → Res (Dict ℚ)
  | .node data subKeys subs (some ks) lists =>
    match ks.getKey nm with
    | none => .error
    | some k =>
      match lists[k.index]? with
      | none => .ub
      | some l =>
        match l[i]? with
        | some (some d) => (f d).bind fun d' =>
            .ok (.node data subKeys subs (some ks) (lists.set k.index (l.set i (some d'))))
        | _ => .ub
  | .node _ _ _ none _ => .error

/-- One call.  `append` takes a dictionary out of its holder; a holder that is empty already raises an error before
(define_python.hpp L47-50). -/
def Edit.apply (rnd : ℚ → ℚ) : Edit → Dict ℚ → Res (Dict ℚ)
  | .set nm g, d => setValue rnd nm g d
  | .append nm c, d => onList nm (.ok [c]) d
  | .sub nm e, d => onSub nm (e.apply rnd) d
  | .entry nm i e, d => onEntry nm i (e.apply rnd) d

/-- A sequence of calls; a call that raises an exception changes nothing. -/
def runEdits (rnd : ℚ → ℚ) : List Edit → Dict ℚ → Res (Dict ℚ)
  | [], d => .ok d
  | e :: l, d =>
    match e.apply rnd d with
    | .ok d' => runEdits rnd l d'
    | .error => runEdits rnd l d
    | .ub => .ub

end QuESo.Json
