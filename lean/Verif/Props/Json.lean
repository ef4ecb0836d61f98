import Verif.Proofs.JsonPrecision

/-!
# Settings files: C79 (what is written is JSON), C80 (reading gives back what was written), C81 (new settings)
-/
namespace QuESo.Json
open QuESo.Settings QuESo.Spec

variable {rnd : ℚ → ℚ}

/-! ## Key sets and settings used in the examples -/

/-- A key set in the order of its declaration. -/
def keysOf (decl : List KeyDecl) : KeySet := ⟨decl.map (·.1), decl.mapIdx fun i e => (e.1, ⟨i, e.2.1, e.2.2⟩)⟩

def exampleKeys : SettingsKeys := ⟨keysOf mainSubDecl, keysOf mainListDecl, keysOf generalDecl, keysOf gridDecl,
  keysOf trimmedDecl, keysOf nonTrimmedDecl, keysOf conditionDecl⟩

theorem exampleKeys_registered : KeysRegistered exampleKeys := by
  have key : ∀ decl : Decl, (decl.map (·.1)).Nodup →
      initMap (decl.map (·.1)) (decl.mapIdx fun i e => ⟨i, e.2.1, e.2.2⟩) = some (keysOf decl) → Registered decl (keysOf decl) := by
    intro decl h1 h2
    refine ⟨h1, _, ?_, h2⟩
    intro k hk
    obtain ⟨i, hi, rfl⟩ := List.mem_mapIdx.1 hk
    exact ⟨decl[i].1, by simp⟩
  constructor <;> exact key _ (by decide +kernel) (by decide +kernel)

/-- The dictionary a call returns. -/
def orDict : Res (Dict ℚ) → Dict ℚ
  | .ok d => d
  | _ => .node none none [] none []

/-- The text of the file. -/
def fileOf (d : Dict ℚ) : Text :=
  match writeJSON d with
  | .ok f => f
  | _ => []

def isOk {α : Type _} : Res α → Bool
  | .ok _ => true
  | _ => false

theorem ok_orDict {r : Res (Dict ℚ)} (h : isOk r = true) : r = .ok (orDict r) := by
  cases r <;> simp_all [isOk, orDict]

def newSettings : Dict ℚ := orDict (createSettings id exampleKeys)
def newCondition : Dict ℚ := orDict (createCondition exampleKeys)

theorem newSettings_eq : createSettings id exampleKeys = .ok newSettings := ok_orDict (by decide +kernel)
theorem newCondition_eq : createCondition exampleKeys = .ok newCondition := ok_orDict (by decide +kernel)

/-- Calls that append a condition with a modulus and set a file name and a bound. -/
def exampleCalls (q : ℚ) : List Edit :=
  [.append "conditions_settings_list".toList newCondition,
   .entry "conditions_settings_list".toList 0 (.set "modulus".toList (.other (.double q))),
   .sub "general_settings".toList (.set "input_filename".toList (.other (.string "dir/a.stl".toList))),
   .sub "background_grid_settings".toList (.set "lower_bound_xyz".toList (.other (.point ⟨-5, 1 / 3, 0⟩))),
   .sub "background_grid_settings".toList (.set "nothing".toList (.int 5 true))]

def exampleSettings (q : ℚ) : Dict ℚ := orDict (runEdits id (exampleCalls q) newSettings)

theorem exampleSettings_is (q : ℚ) (h : isOk (runEdits id (exampleCalls q) newSettings) = true) :
    IsSettings id exampleKeys (exampleSettings q) := by
  refine ⟨newSettings, exampleCalls q, newSettings_eq, ?_, ok_orDict h⟩
  intro e he c hc
  simp only [exampleCalls, List.mem_cons, List.not_mem_nil, or_false] at he
  rcases he with rfl | rfl | rfl | rfl | rfl <;> simp [Edit.appended] at hc
  subst hc
  exact ⟨newCondition, [], newCondition_eq, rfl⟩

/-! ## C79 What is written is JSON -/

/-- Every dictionary is written without undefined behaviour, whatever its depth, and the file is valid JSON: an object with one
member for each value, sub dictionary and list, under its name, with the values as JSON values. -/
theorem C79_valid_json {d : Dict ℚ} (h : Writable d) :
    ∃ file, writeJSON d = .ok file ∧ load rnd file = some (.obj (dictMembers rnd d)) := load_write h

/-- In particular, settings after any calls, with or without conditions, as long as texts are such that JSON readers
understand them between quotation marks. -/
theorem C79_settings {rnd' : ℚ → ℚ} {ks : SettingsKeys} (hk : KeysRegistered ks) {d : Dict ℚ} (hd : IsSettings rnd' ks d)
    (ht : AllVals (fun v => WritableVal (some v)) d) :
    ∃ file, writeJSON d = .ok file ∧ load rnd file = some (.obj (dictMembers rnd d)) :=
  load_write (settingsOf_writable (isSettings_of hk hd) (condition_writable hk) (fresh_writable hk) ht)

/-- Texts are not escaped: a name with a quotation mark makes a file that is no JSON. -/
theorem C79_false_of_code : ∃ d : Dict ℚ, IsSettings id exampleKeys d ∧ ∃ file, writeJSON d = .ok file ∧ load id file = none := by
  let calls : List Edit := [.sub "general_settings".toList (.set "input_filename".toList (.other (.string "12\".stl".toList)))]
  have h1 : isOk (runEdits id calls newSettings) = true := by decide +kernel
  refine ⟨orDict (runEdits id calls newSettings), ⟨newSettings, calls, newSettings_eq, ?_, ok_orDict h1⟩,
    fileOf (orDict (runEdits id calls newSettings)), ?_, by decide +kernel⟩
  · intro e he c hc
    simp only [calls, List.mem_singleton] at he
    subst he
    simp [Edit.appended] at hc
  · have : isOk (writeJSON (orDict (runEdits id calls newSettings))) = true := by decide +kernel
    unfold fileOf
    cases hw : writeJSON (orDict (runEdits id calls newSettings)) with
    | ok f => rfl
    | error => rw [hw] at this; cases this
    | ub => rw [hw] at this; cases this

/-! ## C80 Reading gives back what was written -/

/-- Settings after any calls can be written and read again: the settings read are the settings written, with all keys,
sections, conditions and their order; numbers are rounded to ten significant digits.  This needs at least one condition and
values that can be read (see the counterexamples below). -/
theorem C80_round_trip_partial {ks : SettingsKeys} (hk : KeysRegistered ks) {d : Dict ℚ} (hd : IsSettings rnd ks d) (hr : Readable d) :
    ∃ settings cond file, createSettings rnd ks = .ok settings ∧ createCondition ks = .ok cond ∧ writeJSON d = .ok file ∧
      readSettings rnd settings cond file = .ok (dictBack rnd d) := by
  obtain ⟨file, h1, h2⟩ := round_trip (rnd := rnd) (condition_writable hk) (fresh_writable (rnd := rnd) hk) (condition_enum hk) (fresh_enum hk)
    (isSettings_of hk hd) hr
  exact ⟨_, _, file, createSettings_eq hk, createCondition_eq hk, h1, h2⟩

/-- What this means for the value at every path, set or not. -/
theorem C80_values (p : List Step) (nm : Name) (d : Dict ℚ) :
    valueAt p nm (dictBack rnd d) = (valueAt p nm d).map (valBack rnd) := valueAt_back p nm d

/-- The relative error of numbers in the file is at most half a unit of the tenth digit. -/
theorem C80_precision (q : ℚ) : |tenSignificant q - q| ≤ |q| / (2 * 10 ^ 9) := tenSignificant_near q

/-- Numbers with at most ten significant decimal digits are written exactly. -/
theorem C80_short (n k : ℤ) (hn : n.natAbs < 10 ^ 10) : tenSignificant (n * 10 ^ k) = n * 10 ^ k := tenSignificant_short n k hn

/-- Values that survive unchanged: numbers that are what the computer makes of a decimal with ten digits; texts without
quotation marks, backslashes and control characters; everything else. -/
def Unchanged (rnd : ℚ → ℚ) : Val ℚ → Prop
  | .double q => rnd (tenSignificant q) = q
  | .point v => rnd (tenSignificant v.x) = v.x ∧ rnd (tenSignificant v.y) = v.y ∧ rnd (tenSignificant v.z) = v.z
  | .string s => PlainText s
  | _ => True

theorem unchanged_back {v : Val ℚ} (h : Unchanged rnd v) : valBack rnd v = v := by
  cases v with
  | double q => exact congrArg Val.double h
  | point v => obtain ⟨h1, h2, h3⟩ := h; simp [valBack, h1, h2, h3]
  | string s => simp [valBack, asRead_plain h]
  | _ => rfl

/-- If all values are such, the settings read are the settings written. -/
theorem C80_exact {ks : SettingsKeys} (hk : KeysRegistered ks) {d : Dict ℚ} (hd : IsSettings rnd ks d) (hr : Readable d)
    (hu : AllVals (Unchanged rnd) d) :
    ∃ settings cond file, createSettings rnd ks = .ok settings ∧ createCondition ks = .ok cond ∧ writeJSON d = .ok file ∧
      readSettings rnd settings cond file = .ok d := by
  have := C80_round_trip_partial hk hd hr
  rwa [dictBack_self (allVals_imp hu (fun v hv => unchanged_back hv))] at this

/-- Nothing more is lost in further round trips: after the first one, numbers stay as they are. -/
theorem C80_stable (hrnd : ∀ x, |rnd x - x| ≤ |x| / 10 ^ 15) {d : Dict ℚ}
    (ht : AllVals (fun v => ∀ s, v = .string s → PlainText s) d) : AllVals (Unchanged rnd) (dictBack rnd d) := by
  refine allVals_back ht ?_
  intro v hv
  cases v with
  | double q => exact congrArg rnd (tenSignificant_stable hrnd q)
  | point v => exact ⟨congrArg rnd (tenSignificant_stable hrnd _), congrArg rnd (tenSignificant_stable hrnd _), congrArg rnd (tenSignificant_stable hrnd _)⟩
  | string s =>
    have := hv s rfl
    simp only [valBack, asRead_plain this, Option.getD_some]
    exact this
  | _ => trivial

/-- In particular, the second round trip gives exactly the settings read after the first one. -/
theorem C80_second (hrnd : ∀ x, |rnd x - x| ≤ |x| / 10 ^ 15) {ks : SettingsKeys} (hk : KeysRegistered ks) {d : Dict ℚ}
    (hd : IsSettings rnd ks d) (hr : Readable d) (ht : AllVals (fun v => ∀ s, v = .string s → PlainText s) d) :
    ∃ settings cond file first file', createSettings rnd ks = .ok settings ∧ createCondition ks = .ok cond ∧
      writeJSON d = .ok file ∧ readSettings rnd settings cond file = .ok first ∧
      writeJSON first = .ok file' ∧ readSettings rnd settings cond file' = .ok first := by
  obtain ⟨file, h1, h2⟩ := round_trip (rnd := rnd) (condition_writable hk) (fresh_writable (rnd := rnd) hk) (condition_enum hk) (fresh_enum hk)
    (isSettings_of hk hd) hr
  obtain ⟨file', h3, h4⟩ := round_trip (rnd := rnd) (condition_writable hk) (fresh_writable (rnd := rnd) hk) (condition_enum hk) (fresh_enum hk)
    (settingsOf_back (rnd := rnd) (isSettings_of hk hd)) (readable_back hrnd hr ht)
  rw [dictBack_self (allVals_imp (C80_stable hrnd ht) (fun v hv => unchanged_back hv))] at h4
  exact ⟨_, _, file, _, file', createSettings_eq hk, createCondition_eq hk, h1, h2, h3, h4⟩

/-- A concrete case: settings after calls that append a condition, set values and fail once. -/
theorem exampleSettings_readable : Readable (exampleSettings (1 / 3)) := by
  have e : exampleSettings (1 / 3) = .node none (some exampleKeys.mainSub)
      [some (values exampleKeys.general [some (.string "dir/a.stl".toList), some (.string "queso_output".toList), some (.index 1), some (.bool true)]),
       some (values exampleKeys.grid [none, some (.point ⟨-5, 1 / 3, 0⟩), none, none, none, none, none]),
       some (values exampleKeys.trimmed [some (.double (1 / 10 ^ 10)), some (.double (1 / 10 ^ 3)), some (.index 100), some (.bool true), none]),
       some (values exampleKeys.nonTrimmed [some (.method 0)])] (some exampleKeys.mainList)
      [[some (values exampleKeys.condition [none, none, none, some (.double (1 / 3)), none, none, none])]] := by
    rfl
  have hv : ∀ (ks : KeySet) (data : List (Option (Val ℚ))), (∀ v, some v ∈ data → ReadableVal v) → Readable (values ks data) := by
    intro ks data h
    exact .node (by rintro d ⟨⟩; exact h) (by simp) (by simp) (by simp)
  have hq : ∀ q : ℚ, 0 ≤ tenSignificant q → ReadableVal (.double q) := fun q h hn => absurd hn.1 (not_lt.2 h)
  rw [e]
  refine .node (by simp) (by simp) ?_ ?_
  · intro d hd
    simp only [List.mem_cons, Option.some.injEq, List.not_mem_nil, or_false] at hd
    rcases hd with rfl | rfl | rfl | rfl <;> apply hv <;> intro v h <;>
      simp only [List.mem_cons, Option.some.injEq, List.not_mem_nil, or_false, reduceCtorEq, false_or] at h
    · rcases h with rfl | rfl | rfl | rfl
      · exact ⟨_, asRead_plain (by unfold PlainText; decide +kernel), by decide +kernel⟩
      · exact ⟨_, asRead_plain (by unfold PlainText; decide +kernel), by decide +kernel⟩
      · norm_num [ReadableVal]
      · trivial
    · subst h; trivial
    · rcases h with rfl | rfl | rfl | rfl
      · exact hq _ (by decide +kernel)
      · exact hq _ (by decide +kernel)
      · norm_num [ReadableVal]
      · trivial
    · subst h; norm_num [ReadableVal]
  · intro l hl d hd
    simp only [List.mem_singleton] at hl
    subst hl
    simp only [List.mem_singleton, Option.some.injEq] at hd
    subst hd
    apply hv
    intro v h
    simp only [List.mem_cons, Option.some.injEq, List.not_mem_nil, or_false, reduceCtorEq, false_or] at h
    subst h
    exact hq _ (by decide +kernel)

example : ∃ settings cond file, createSettings id exampleKeys = .ok settings ∧ createCondition exampleKeys = .ok cond ∧
    writeJSON (exampleSettings (1 / 3)) = .ok file ∧
    readSettings id settings cond file = .ok (dictBack id (exampleSettings (1 / 3))) :=
  C80_round_trip_partial exampleKeys_registered (exampleSettings_is _ (by decide +kernel)) exampleSettings_readable

/-- The first condition has the modulus with ten digits. -/
example : valueAt [.entry "conditions_settings_list".toList 0] "modulus".toList (dictBack id (exampleSettings (1 / 3))) =
    some (.double (3333333333 / 10 ^ 10)) := by
  rw [C80_values]; decide +kernel

/-- Settings without conditions, in particular new ones, can be written but not read. -/
theorem C80_false_no_conditions {ks : SettingsKeys} (hk : KeysRegistered ks) {settings cond : Dict ℚ}
    (hs : createSettings rnd ks = .ok settings) :
    ∃ file, writeJSON settings = .ok file ∧ ∀ d, readSettings rnd settings cond file ≠ .ok d := by
  rw [createSettings_eq hk] at hs
  cases hs
  obtain ⟨file, h1, h2⟩ := load_write (rnd := rnd) (fresh_writable (rnd := rnd) hk)
  refine ⟨file, h1, ?_⟩
  intro d hd
  rw [readSettings, h2] at hd
  obtain ⟨e, he, hi⟩ := keysFit_all (ks := ks.mainList) (n := 1) ⟨_, hk.mainList, rfl⟩ (i := 0) (by norm_num)
  obtain ⟨x, y, hxy⟩ := readMembers_all _ _ _ _ hd (e.1, .list []) (by
    unfold fresh
    rw [dictMembers]
    apply List.mem_append_right
    simp only [listMembers, List.mem_map]
    exact ⟨e, he, by simp [allLists, allMembers, hi]⟩)
  simp [readPair, readEntry] at hxy

def Raises : Res (Dict ℚ) → Bool
  | .error => true
  | _ => false

/-- A negative whole number is written without a point; reading it raises an exception, since it is taken for a truth
value. -/
theorem C80_false_negative : IsSettings id exampleKeys (exampleSettings (-5)) ∧
    isOk (writeJSON (exampleSettings (-5))) = true ∧
    Raises (readSettings id newSettings newCondition (fileOf (exampleSettings (-5)))) = true :=
  ⟨exampleSettings_is _ (by decide +kernel), by decide +kernel, by decide +kernel⟩

/-- Backslashes are not escaped: the text can be read, but is another one. -/
theorem C80_false_backslash : ReadableVal (.string "data\\tube.stl".toList) ∧
    valBack rnd (.string "data\\tube.stl".toList) = .string "data\tube.stl".toList :=
  ⟨⟨"data\tube.stl".toList, by decide +kernel, by decide +kernel⟩, congrArg Val.string (by decide +kernel)⟩

/-- A text that equals the one for values that are not set is read as not set: the setting keeps its default. -/
theorem C80_false_not_set :
    let d := orDict (runEdits id [.append "conditions_settings_list".toList newCondition,
      .sub "general_settings".toList (.set "output_directory_name".toList (.other (.string "Not Set.".toList)))] newSettings)
    valueAt [.sub "general_settings".toList] "output_directory_name".toList d = some (.string "Not Set.".toList) ∧
    valueAt [.sub "general_settings".toList] "output_directory_name".toList
      (orDict (readSettings id newSettings newCondition (fileOf d))) = some (.string "queso_output".toList) :=
  ⟨by decide +kernel, by decide +kernel⟩

/-! ## C81 New settings -/

/-- New settings have the documented default values and no others, and new condition settings have no values. -/
theorem C81_defaults {ks : SettingsKeys} (hk : KeysRegistered ks) :
    ∃ settings cond, createSettings rnd ks = .ok settings ∧ createCondition ks = .ok cond ∧
      (∀ p nm v, valueAt p nm settings = some v ↔
        ∃ section_ name, p = [.sub section_.toList] ∧ nm = name.toList ∧ (section_, name, v) ∈ defaults rnd) ∧
      ∀ p nm, valueAt p nm cond = none := by
  refine ⟨_, _, createSettings_eq hk, createCondition_eq hk, fresh_values hk, ?_⟩
  intro p nm
  cases p with
  | nil =>
    rw [valueAt, Option.eq_none_iff_forall_ne_some]
    intro v hv
    obtain ⟨i, -, -, h2⟩ := (valueOf_values hk.condition _ _ _).1 hv
    have := List.mem_of_getElem? h2
    simp at this
  | cons s p => exact valueAt_values _ _ _ _ _

example : valueAt [.sub "trimmed_quadrature_rule_settings".toList] "min_num_boundary_triangles".toList newSettings =
    some (.index 100) := by decide +kernel

end QuESo.Json
