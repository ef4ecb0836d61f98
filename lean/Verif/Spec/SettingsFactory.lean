import Verif.Model.SettingsFactory
import Verif.Spec.Json

/-!
# Specification vocabulary for settings made by calls
-/
namespace QuESo.Spec
open QuESo.Settings QuESo.Json

/-- The key sets are those of the declarations in `register_keys.hpp`. -/
structure KeysRegistered (ks : SettingsKeys) : Prop where
  mainSub : Registered mainSubDecl ks.mainSub
  mainList : Registered mainListDecl ks.mainList
  general : Registered generalDecl ks.general
  grid : Registered gridDecl ks.grid
  trimmed : Registered trimmedDecl ks.trimmed
  nonTrimmed : Registered nonTrimmedDecl ks.nonTrimmed
  condition : Registered conditionDecl ks.condition

/-- The dictionaries a call appends. -/
def _root_.QuESo.Json.Edit.appended : Edit → List (Dict ℚ)
  | .set _ _ => []
  | .append _ c => [c]
  | .sub _ e => e.appended
  | .entry _ _ e => e.appended

/-- Condition settings: created by the library, then changed by any calls. -/
def IsCondition (rnd : ℚ → ℚ) (ks : SettingsKeys) (c : Dict ℚ) : Prop :=
  ∃ new calls, createCondition ks = .ok new ∧ runEdits rnd calls new = .ok c

/-- Settings: created by the library, then changed by any calls; only condition settings are appended to lists. -/
def IsSettings (rnd : ℚ → ℚ) (ks : SettingsKeys) (d : Dict ℚ) : Prop :=
  ∃ new calls, createSettings rnd ks = .ok new ∧ (∀ e ∈ calls, ∀ c ∈ e.appended, IsCondition rnd ks c) ∧
    runEdits rnd calls new = .ok d

/-! ## Looking up values -/

/-- A step from a dictionary to one inside: `settings["name"]` or `settings.GetList("name")[i]`. -/
inductive Step
  | sub (nm : Name)
  | entry (nm : Name) (i : Nat)

/-- The dictionary one step inside. -/
def child : Step → Dict ℚ → Option (Dict ℚ)
  | .sub nm, .node _ (some ks) subs _ _ => (ks.getKey nm).bind fun k => (subs[k.index]?).join
  | .entry nm i, .node _ _ _ (some ks) lists => (ks.getKey nm).bind fun k => (lists[k.index]?).bind fun l => (l[i]?).join
  | _, _ => none

/-- The value of a key by name; `none` if there is no such key or its value is not set. -/
def valueOf (nm : Name) : Dict ℚ → Option (Val ℚ)
  | .node (some d) _ _ _ _ => (d.keys.getKey nm).bind fun k => (d.data[k.index]?).join
  | .node none _ _ _ _ => none

/-- The value at the end of a path. -/
def valueAt : List Step → Name → Dict ℚ → Option (Val ℚ)
  | [], nm, d => valueOf nm d
  | s :: p, nm, d => (child s d).bind (valueAt p nm)

/-- The default values, as documented: section, name and value. -/
def defaults (rnd : ℚ → ℚ) : List (String × String × Val ℚ) :=
  [("general_settings", "output_directory_name", .string "queso_output".toList),
   ("general_settings", "echo_level", .index 1),
   ("general_settings", "write_output_to_file", .bool true),
   ("trimmed_quadrature_rule_settings", "moment_fitting_residual", .double (rnd (1 / 10 ^ 10))),
   ("trimmed_quadrature_rule_settings", "min_element_volume_ratio", .double (rnd (1 / 10 ^ 3))),
   ("trimmed_quadrature_rule_settings", "min_num_boundary_triangles", .index 100),
   ("trimmed_quadrature_rule_settings", "neglect_elements_if_stl_is_flawed", .bool true),
   ("non_trimmed_quadrature_rule_settings", "integration_method", .method 0)]

end QuESo.Spec
