import Verif.Proofs.SettingsFile
import Verif.Props.Json
import Verif.Props.Settings

/-!
# Settings files written by hand: C82
-/
namespace QuESo.Json
open QuESo.Settings QuESo.Spec

variable {rnd : ℚ → ℚ}

theorem fresh_eq {ks : SettingsKeys} (hk : KeysRegistered ks) :
    fresh rnd ks = settingsWith ks (fun sec nm => valueAt [.sub sec] nm (fresh rnd ks)) [] := by
  have hsub : ∀ {i : Nat} {s : String × Decl}, sections[i]? = some s → ks.mainSub.getKey s.1.toList = some ⟨i, .index, false⟩ := by
    intro i s hs
    rw [registered_getKey hk.mainSub, mainSub_sections, List.getElem?_map, hs]
    rfl
  have e0 := hsub (i := 0) (s := ("general_settings", generalDecl)) rfl
  have e1 := hsub (i := 1) (s := ("background_grid_settings", gridDecl)) rfl
  have e2 := hsub (i := 2) (s := ("trimmed_quadrature_rule_settings", trimmedDecl)) rfl
  have e3 := hsub (i := 3) (s := ("non_trimmed_quadrature_rule_settings", nonTrimmedDecl)) rfl
  unfold settingsWith
  rw [show fresh rnd ks = .node none (some ks.mainSub)
      [some (values ks.general [none, some (.string "queso_output".toList), some (.index 1), some (.bool true)]),
       some (values ks.grid (List.replicate 7 none)),
       some (values ks.trimmed [some (.double (rnd (1 / 10 ^ 10))), some (.double (rnd (1 / 10 ^ 3))), some (.index 100), some (.bool true), none]),
       some (values ks.nonTrimmed [some (.method 0)])] (some ks.mainList) [[]] from rfl]
  simp only [sections, List.mapIdx_cons, List.mapIdx_nil, List.map_nil, valueAt, child, e0, e1, e2, e3, Option.bind_some,
    List.getElem?_cons_zero, List.getElem?_cons_succ, Option.join_some, Nat.zero_add, Nat.reduceAdd, sectionKeys]
  rw [values_valueOf hk.general rfl, values_valueOf hk.grid rfl, values_valueOf hk.trimmed rfl, values_valueOf hk.nonTrimmed rfl]

/-! ## Required values -/

theorem settingsOf_values {ks : KeySet} {data : List (Option (Val ℚ))} {cond d : Dict ℚ} (h : SettingsOf cond (values ks data) d) :
    ∃ data', d = values ks data' ∧ data'.length = data.length := by
  cases h with
  | node hdata hlen hb hs hsub hempty hnull hlist =>
    rename_i data' subs lists
    cases data' with
    | none => cases hdata
    | some d' =>
      obtain ⟨h1, h2, -, -⟩ := hdata
      obtain ⟨k, dd⟩ := d'
      simp only at h1 h2
      subst h1
      have hs' : subs = [] := List.eq_nil_of_length_eq_zero (by simpa using hlen.symm)
      have hl' : lists = [] := by simpa using hempty.symm
      subst hs'; subst hl'
      exact ⟨dd, rfl, h2⟩

/-- The shape of settings after any calls. -/
theorem isSettings_with {ks : SettingsKeys} (hk : KeysRegistered ks) {d : Dict ℚ} (hd : IsSettings rnd ks d) :
    ∃ F C, d = settingsWith ks F C := by
  have h := isSettings_of hk hd
  unfold fresh at h
  cases h with
  | node hdata hlen hb hs hsub hempty hnull hlist =>
    rename_i data' subs lists
    cases data' with
    | some d' => cases hdata
    | none =>
      have h4 : ∃ a b c e, subs = [some a, some b, some c, some e] := by
        have hne : ∀ x ∈ subs, ∃ y, x = some y := by
          intro x hx
          cases x with
          | none => exact absurd hx hs
          | some y => exact ⟨y, rfl⟩
        match subs, hlen, hne with
        | [x, y, z, w], _, hne =>
          obtain ⟨a, rfl⟩ := hne x (by simp)
          obtain ⟨b, rfl⟩ := hne y (by simp)
          obtain ⟨c, rfl⟩ := hne z (by simp)
          obtain ⟨e, rfl⟩ := hne w (by simp)
          exact ⟨a, b, c, e, rfl⟩
      obtain ⟨a, b, c, e, rfl⟩ := h4
      obtain ⟨da, rfl, la⟩ := settingsOf_values (hsub 0 _ a rfl rfl)
      obtain ⟨db, rfl, lb⟩ := settingsOf_values (hsub 1 _ b rfl rfl)
      obtain ⟨dc, rfl, lc⟩ := settingsOf_values (hsub 2 _ c rfl rfl)
      obtain ⟨de, rfl, le⟩ := settingsOf_values (hsub 3 _ e rfl rfl)
      have hl1 : ∃ l, lists = [l] := by
        match lists, hempty with
        | [l], _ => exact ⟨l, rfl⟩
      obtain ⟨l, rfl⟩ := hl1
      have hconds : ∃ C : List (Name → Option (Val ℚ)), l = C.map fun f => some (values ks.condition (conditionDecl.map fun x => f x.1)) := by
        have hall : ∀ x ∈ l, ∃ f : Name → Option (Val ℚ), x = some (values ks.condition (conditionDecl.map fun x => f x.1)) := by
          intro x hx
          cases x with
          | none => exact absurd hx (hnull l (by simp))
          | some y =>
            obtain ⟨dy, rfl, ly⟩ := settingsOf_values (hlist l (by simp) y hx)
            exact ⟨fun nm => valueOf nm (values ks.condition dy), by
              rw [values_valueOf hk.condition (by rw [ly]; rfl)]⟩
        clear hempty hnull hlist hlen hb hs hsub hdata hd
        induction l with
        | nil => exact ⟨[], rfl⟩
        | cons x l ih =>
          obtain ⟨f, rfl⟩ := hall x (by simp)
          obtain ⟨C, hC⟩ := ih fun y hy => hall y (List.mem_cons_of_mem _ hy)
          exact ⟨f :: C, by rw [hC]; rfl⟩
      obtain ⟨C, rfl⟩ := hconds
      refine ⟨fun sec nm => if sec = "general_settings".toList then valueOf nm (values ks.general da)
        else if sec = "background_grid_settings".toList then valueOf nm (values ks.grid db)
        else if sec = "trimmed_quadrature_rule_settings".toList then valueOf nm (values ks.trimmed dc)
        else valueOf nm (values ks.nonTrimmed de), C, ?_⟩
      unfold settingsWith
      have n1 : "background_grid_settings".toList ≠ "general_settings".toList := by decide
      have n2 : "trimmed_quadrature_rule_settings".toList ≠ "general_settings".toList := by decide
      have n3 : "trimmed_quadrature_rule_settings".toList ≠ "background_grid_settings".toList := by decide
      have n4 : "non_trimmed_quadrature_rule_settings".toList ≠ "general_settings".toList := by decide
      have n5 : "non_trimmed_quadrature_rule_settings".toList ≠ "background_grid_settings".toList := by decide
      have n6 : "non_trimmed_quadrature_rule_settings".toList ≠ "trimmed_quadrature_rule_settings".toList := by decide
      simp only [sections, List.mapIdx_cons, List.mapIdx_nil, Nat.zero_add, Nat.reduceAdd, sectionKeys, if_true, if_neg n1, if_neg n2,
        if_neg n3, if_neg n4, if_neg n5, if_neg n6]
      rw [values_valueOf hk.general (by rw [la]; rfl), values_valueOf hk.grid (by rw [lb]; rfl),
        values_valueOf hk.trimmed (by rw [lc]; rfl), values_valueOf hk.nonTrimmed (by rw [le]; rfl)]

theorem missing_values {decl : Decl} {ks : KeySet} (h : Registered decl ks) (f : Name → Option (Val ℚ)) :
    Missing (values ks (decl.map fun x => f x.1)) ↔ ∃ nm t, (nm, t, true) ∈ decl ∧ f nm = none := by
  have hset : ∀ nm k, ks.getKey nm = some k →
      (⟨ks, decl.map fun x => f x.1⟩ : DataSet ℚ).isSetName nm = .ok (f nm).isSome := by
    intro nm k hk
    have := (registered_getKey h nm k).1 hk
    simp [DataSet.isSetName, hk, DataSet.isSet, this]
  constructor
  · intro hm
    cases hm with
    | value hk hr hu =>
      rename_i nm k
      have hd := (registered_getKey h nm k).1 hk
      rw [hset nm k hk] at hu
      refine ⟨nm, k.ty, ?_, ?_⟩
      · rw [← hr]; exact List.mem_of_getElem? hd
      · simpa using hu
  · rintro ⟨nm, t, hm, hf⟩
    obtain ⟨i, hi⟩ := List.mem_iff_getElem?.1 hm
    have hk := (registered_getKey h nm ⟨i, t, true⟩).2 hi
    refine .value hk rfl ?_
    rw [hset nm _ hk, hf]; rfl

theorem values_wellFormed {decl : Decl} {ks : KeySet} (h : Registered decl ks) (f : Name → Option (Val ℚ)) :
    WellFormed (values ks (decl.map fun x => f x.1)) :=
  .node (by rintro d ⟨⟩; exact ⟨decl, h, by simp⟩) (by simp) (by simp) (by simp) (by simp)

theorem settingsWith_section {ks : SettingsKeys} (hk : KeysRegistered ks) {s : String × Decl} (hs : s ∈ sections) (F C) (nm : Name) :
    valueAt [.sub s.1.toList] nm (settingsWith ks F C) = if (declType s.2 nm).isSome = true then F s.1.toList nm else none := by
  obtain ⟨i, hi⟩ := List.mem_iff_getElem?.1 hs
  have hkey : ks.mainSub.getKey s.1.toList = some ⟨i, .index, false⟩ := by
    rw [registered_getKey hk.mainSub, mainSub_sections, List.getElem?_map, hi]; rfl
  simp only [valueAt, settingsWith, child, hkey, Option.bind_some, List.getElem?_mapIdx, hi, Option.map_some, Option.join_some]
  exact valueOf_section (sections_registered hk hi).1 _ nm

theorem settingsWith_child {ks : SettingsKeys} (hk : KeysRegistered ks) (F) (C : List (Name → Option (Val ℚ))) (i : Nat) :
    child (.entry conditionsName.toList i) (settingsWith ks F C) =
      (C[i]?).map fun f => values ks.condition (conditionDecl.map fun x => f x.1) := by
  have hkey : ks.mainList.getKey conditionsName.toList = some ⟨0, .index, false⟩ :=
    (registered_getKey hk.mainList _ _).2 rfl
  simp only [settingsWith, child, hkey, Option.bind_some, List.getElem?_cons_zero, List.getElem?_map]
  cases C[i]? <;> rfl

theorem declType_isSome {decl : Decl} {nm : Name} {t : Ty} {r : Bool} (h : (nm, t, r) ∈ decl) : (declType decl nm).isSome = true := by
  unfold declType
  rw [Option.isSome_map, List.find?_isSome]
  exact ⟨_, h, by simp⟩

/-- The check of settings after any calls succeeds exactly if all required values are set, in the sections and in every
condition; it never has undefined behaviour. -/
theorem C81_check {ks : SettingsKeys} (hk : KeysRegistered ks) {d : Dict ℚ} (hd : IsSettings rnd ks d) :
    d.checkRequired ≠ .ub ∧
    (d.checkRequired = .ok () ↔
      (∀ s ∈ sections, ∀ nm t, (nm, t, true) ∈ s.2 → valueAt [.sub s.1.toList] nm d ≠ none) ∧
      ∀ i, (child (.entry conditionsName.toList i) d).isSome = true → ∀ nm t, (nm, t, true) ∈ conditionDecl →
        valueAt [.entry conditionsName.toList i] nm d ≠ none) := by
  obtain ⟨F, C, rfl⟩ := isSettings_with hk hd
  have hwf : WellFormed (settingsWith ks F C) := by
    refine .node (by simp) ?_ ?_ ?_ ?_
    · rintro k ⟨⟩; exact ⟨_, hk.mainSub, rfl⟩
    · rintro k ⟨⟩; exact ⟨_, hk.mainList, rfl⟩
    · intro x hx
      obtain ⟨i, hi, he⟩ := List.mem_mapIdx.1 hx
      cases he
      exact values_wellFormed (sections_registered hk (List.getElem?_eq_getElem hi)).1 _
    · intro l hl x hx
      rw [List.mem_singleton] at hl
      subst hl
      obtain ⟨f, -, he⟩ := List.mem_map.1 hx
      cases he
      exact values_wellFormed hk.condition f
  have hc := QuESo.Props.C43_check_complete hwf
  refine ⟨hc.1, hc.2.trans ?_⟩
  have hmiss : Missing (settingsWith ks F C) ↔
      (∃ s ∈ sections, ∃ nm t, (nm, t, true) ∈ s.2 ∧ F s.1.toList nm = none) ∨
      ∃ f ∈ C, ∃ nm t, (nm, t, true) ∈ conditionDecl ∧ f nm = none := by
    constructor
    · intro hm
      cases hm with
      | subUnset hk' hu =>
        rename_i nm k
        exfalso
        rw [List.getElem?_mapIdx] at hu
        cases hs : sections[k.index]? <;> rw [hs] at hu <;> simp at hu
      | sub hk' hu h =>
        rename_i nm k d'
        rw [List.getElem?_mapIdx] at hu
        cases hs : sections[k.index]? with
        | none => rw [hs] at hu; simp at hu
        | some s =>
          rw [hs] at hu
          simp only [Option.map_some, Option.some.injEq] at hu
          subst hu
          exact .inl ⟨s, List.mem_of_getElem? hs, (missing_values (sections_registered hk hs).1 _).1 h⟩
      | entryUnset hk' hu hn =>
        rename_i nm k l
        exfalso
        rcases hi : k.index with _ | n <;> rw [hi] at hu
        · cases hu; simp at hn
        · simp at hu
      | entry hk' hu hn h =>
        rename_i nm k l d'
        rcases hi : k.index with _ | n <;> rw [hi] at hu
        · cases hu
          obtain ⟨f, hf, he⟩ := List.mem_map.1 hn
          cases he
          exact .inr ⟨f, hf, (missing_values hk.condition f).1 h⟩
        · simp at hu
    · rintro (⟨s, hs, h⟩ | ⟨f, hf, h⟩)
      · obtain ⟨i, hi⟩ := List.mem_iff_getElem?.1 hs
        have hkey : ks.mainSub.getKey s.1.toList = some ⟨i, .index, false⟩ := by
          rw [registered_getKey hk.mainSub, mainSub_sections, List.getElem?_map, hi]; rfl
        refine .sub hkey ?_ ((missing_values (sections_registered hk hi).1 (F s.1.toList)).2 h)
        rw [List.getElem?_mapIdx, hi]; rfl
      · have hkey : ks.mainList.getKey conditionsName.toList = some ⟨0, .index, false⟩ := (registered_getKey hk.mainList _ _).2 rfl
        exact .entry hkey rfl (List.mem_map.2 ⟨f, hf, rfl⟩) ((missing_values hk.condition f).2 h)
  rw [hmiss, not_or]
  refine and_congr ?_ ?_
  · constructor
    · intro h s hs nm t hm hv
      rw [settingsWith_section hk hs, if_pos (declType_isSome hm)] at hv
      exact h ⟨s, hs, nm, t, hm, hv⟩
    · rintro h ⟨s, hs, nm, t, hm, hv⟩
      apply h s hs nm t hm
      rw [settingsWith_section hk hs, if_pos (declType_isSome hm), hv]
  · constructor
    · intro h i hi nm t hm hv
      rw [settingsWith_child hk, Option.isSome_map] at hi
      obtain ⟨f, hf⟩ := Option.isSome_iff_exists.1 hi
      change (child _ _).bind (valueAt [] nm) = _ at hv
      rw [settingsWith_child hk, hf, Option.map_some, Option.bind_some] at hv
      change valueOf nm _ = _ at hv
      rw [valueOf_section hk.condition f, if_pos (declType_isSome hm)] at hv
      exact h ⟨f, List.mem_of_getElem? hf, nm, t, hm, hv⟩
    · rintro h ⟨f, hf, nm, t, hm, hv⟩
      obtain ⟨i, hi⟩ := List.mem_iff_getElem?.1 hf
      apply h i (by rw [settingsWith_child hk, hi]; rfl) nm t hm
      change (child _ _).bind (valueAt [] nm) = _
      rw [settingsWith_child hk, hi, Option.map_some, Option.bind_some]
      change valueOf nm _ = _
      rw [valueOf_section hk.condition f, if_pos (declType_isSome hm), hv]

/-- Calls that set all required values. -/
def completeCalls : List Edit :=
  [.sub "general_settings".toList (.set "input_filename".toList (.other (.string "a.stl".toList))),
   .sub "background_grid_settings".toList (.set "grid_type".toList (.other (.grid 0))),
   .sub "background_grid_settings".toList (.set "lower_bound_xyz".toList (.vec3i ⟨0, 0, 0⟩)),
   .sub "background_grid_settings".toList (.set "upper_bound_xyz".toList (.vec3i ⟨1, 2, 3⟩)),
   .sub "background_grid_settings".toList (.set "lower_bound_uvw".toList (.vec3i ⟨0, 0, 0⟩)),
   .sub "background_grid_settings".toList (.set "upper_bound_uvw".toList (.vec3i ⟨1, 2, 3⟩)),
   .sub "background_grid_settings".toList (.set "polynomial_order".toList (.vec3i ⟨2, 2, 2⟩)),
   .sub "background_grid_settings".toList (.set "number_of_elements".toList (.vec3i ⟨4, 4, 4⟩)),
   .append "conditions_settings_list".toList newCondition,
   .entry "conditions_settings_list".toList 0 (.set "condition_id".toList (.int 1 true)),
   .entry "conditions_settings_list".toList 0 (.set "input_filename".toList (.other (.string "b.stl".toList)))]

/-- Whether the check succeeds. -/
def passes (r : Res (Dict ℚ)) : Bool :=
  match (orDict r).checkRequired with
  | .ok _ => true
  | _ => false

/-- Beside `C81_check`: with all these calls the check succeeds, without the last or the first one it fails. -/
example : passes (runEdits id completeCalls newSettings) = true ∧ passes (runEdits id completeCalls.dropLast newSettings) = false ∧
    passes (runEdits id completeCalls.tail newSettings) = false := by decide +kernel

/-- The settings read from a file. -/
theorem read_file (h0 : rnd 0 = 0) (h1 : rnd 1 = 1) {ks : SettingsKeys} (hk : KeysRegistered ks) {settings cond : Dict ℚ}
    (hs : createSettings rnd ks = .ok settings) (hc : createCondition ks = .ok cond) {file : Text} {ms : List (Name × Json)}
    (hl : load rnd file = some (.obj ms)) :
    (FileOk rnd ms → readSettings rnd settings cond file = .ok (settingsWith ks
      (fun sec nm => (sectionValue rnd (declOf sec) (sectionIn ms sec) nm).or (valueAt [.sub sec] nm settings))
      ((conditionsIn ms).map fun l => sectionValue rnd conditionDecl l))) ∧
    (¬ FileOk rnd ms → readSettings rnd settings cond file = .error) := by
  have hs' : settings = fresh rnd ks := by
    have := createSettings_eq (rnd := rnd) hk
    rw [hs] at this
    exact Res.ok.inj this
  have hc' : cond = values ks.condition (conditionDecl.map fun _ => none) := by
    have := createCondition_eq hk
    rw [hc] at this
    exact Res.ok.inj this
  subst hs'
  subst hc'
  unfold readSettings
  rw [hl]
  cases load_distinct hl with
  | obj hn hd =>
    have hm := readMembers_main (rnd := rnd) h0 h1 hk ms (fun sec nm => valueAt [.sub sec] nm (fresh rnd ks)) [] hn
      (fun e he => distinct_entry (hd e he))
    rw [← fresh_eq hk, List.nil_append] at hm
    exact hm

/-- Reading a settings file never has undefined behaviour, and it succeeds exactly if the text is JSON, the outermost value is
an object and every value in it suits its key. -/
theorem C82_accepted (h0 : rnd 0 = 0) (h1 : rnd 1 = 1) {ks : SettingsKeys} (hk : KeysRegistered ks) {settings cond : Dict ℚ}
    (hs : createSettings rnd ks = .ok settings) (hc : createCondition ks = .ok cond) (file : Text) :
    readSettings rnd settings cond file ≠ .ub ∧
    ((∃ d, readSettings rnd settings cond file = .ok d) ↔ ∃ ms, load rnd file = some (.obj ms) ∧ FileOk rnd ms) := by
  by_cases hl : ∃ ms, load rnd file = some (.obj ms)
  · obtain ⟨ms, hl⟩ := hl
    obtain ⟨r1, r2⟩ := read_file h0 h1 hk hs hc hl
    by_cases hf : FileOk rnd ms
    · rw [r1 hf]
      exact ⟨by simp, fun _ => ⟨ms, hl, hf⟩, fun _ => ⟨_, rfl⟩⟩
    · rw [r2 hf]
      refine ⟨by simp, ?_, ?_⟩
      · rintro ⟨d, hd⟩; cases hd
      · rintro ⟨ms', hl', hf'⟩
        rw [hl] at hl'
        cases hl'
        exact absurd hf' hf
  · have he : readSettings rnd settings cond file = .error := by
      unfold readSettings
      split
      · rename_i l h; exact absurd ⟨l, h⟩ hl
      · rfl
    rw [he]
    refine ⟨by simp, ?_, ?_⟩
    · rintro ⟨d, hd⟩; cases hd
    · rintro ⟨ms, h, -⟩; exact absurd ⟨ms, h⟩ hl

/-- What the settings read from a file are: a key has the value the file gives it, converted to the type of the key, or, if the
file does not give one, its default; there is one condition for each entry of the list in the file, in this order, with the
values the file gives. -/
theorem C82_values (h0 : rnd 0 = 0) (h1 : rnd 1 = 1) {ks : SettingsKeys} (hk : KeysRegistered ks) {settings cond d : Dict ℚ}
    (hs : createSettings rnd ks = .ok settings) (hc : createCondition ks = .ok cond) {file : Text} {ms : List (Name × Json)}
    (hl : load rnd file = some (.obj ms)) (hr : readSettings rnd settings cond file = .ok d) :
    (∀ s ∈ sections, ∀ nm, valueAt [.sub s.1.toList] nm d =
      (sectionValue rnd s.2 (sectionIn ms s.1.toList) nm).or (valueAt [.sub s.1.toList] nm settings)) ∧
    (∀ i nm, valueAt [.entry conditionsName.toList i] nm d =
      ((conditionsIn ms)[i]?).bind fun l => sectionValue rnd conditionDecl l nm) ∧
    ∀ i, (child (.entry conditionsName.toList i) d).isSome = true ↔ i < (conditionsIn ms).length := by
  obtain ⟨r1, r2⟩ := read_file h0 h1 hk hs hc hl
  by_cases hf : FileOk rnd ms
  swap
  · rw [r2 hf] at hr; cases hr
  rw [r1 hf] at hr
  cases hr
  have hundecl : ∀ (decl : Decl) l nm, (declType decl nm).isSome = false → sectionValue rnd decl l nm = none := by
    intro decl l nm h
    rw [Option.isSome_eq_false_iff, Option.isNone_iff_eq_none] at h
    unfold sectionValue
    cases member l nm with
    | none => rfl
    | some j => rw [Option.bind_some, h]; split <;> rfl
  have hcond : ∀ i, child (.entry conditionsName.toList i) (settingsWith ks
      (fun sec nm => (sectionValue rnd (declOf sec) (sectionIn ms sec) nm).or (valueAt [.sub sec] nm settings))
      ((conditionsIn ms).map fun l => sectionValue rnd conditionDecl l)) =
      ((conditionsIn ms)[i]?).map fun l => values ks.condition (conditionDecl.map fun x => sectionValue rnd conditionDecl l x.1) := by
    intro i
    have hkey : ks.mainList.getKey conditionsName.toList = some ⟨0, .index, false⟩ :=
      (registered_getKey hk.mainList _ _).2 rfl
    simp only [settingsWith, child, hkey, Option.bind_some, List.getElem?_cons_zero, List.getElem?_map, List.map_map]
    cases (conditionsIn ms)[i]? <;> rfl
  refine ⟨?_, ?_, ?_⟩
  · intro s hs' nm
    obtain ⟨i, hi⟩ := List.mem_iff_getElem?.1 hs'
    have hkey : ks.mainSub.getKey s.1.toList = some ⟨i, .index, false⟩ := by
      rw [registered_getKey hk.mainSub, mainSub_sections, List.getElem?_map, hi]; rfl
    have hreg := (sections_registered hk hi).1
    have hfr : settings = fresh rnd ks := by
      have := createSettings_eq (rnd := rnd) hk
      rw [hs] at this
      exact Res.ok.inj this
    have hlook : ∀ F C, valueAt [.sub s.1.toList] nm (settingsWith ks F C) =
        if (declType s.2 nm).isSome = true then F s.1.toList nm else none := by
      intro F C
      simp only [valueAt, settingsWith, child, hkey, Option.bind_some, List.getElem?_mapIdx, hi, Option.map_some, Option.join_some]
      exact valueOf_section hreg _ nm
    rw [hlook, declOf_section hi]
    by_cases hd : (declType s.2 nm).isSome = true
    · rw [if_pos hd]
    · rw [if_neg hd, hundecl _ _ _ (by simpa using hd), Option.none_or, hfr, fresh_eq hk, hlook, if_neg hd]
  · intro i nm
    change (child _ _).bind (valueAt [] nm) = _
    rw [hcond]
    cases (conditionsIn ms)[i]? with
    | none => rfl
    | some l =>
      simp only [Option.map_some, Option.bind_some]
      change valueOf nm _ = _
      rw [valueOf_section hk.condition (sectionValue rnd conditionDecl l)]
      by_cases hd : (declType conditionDecl nm).isSome = true
      · rw [if_pos hd]
      · rw [if_neg hd, hundecl _ _ _ (by simpa using hd)]
  · intro i
    rw [hcond, Option.isSome_map]
    simp

/-- A file as a user writes it. -/
def byHand : Text := ("{\"background_grid_settings\": {\"lower_bound_xyz\": [-1, 0.5, 1e1]},\n" ++
  " \"conditions_settings_list\": [{\"modulus\": 2}, {\"modulus\": \"Not Set.\"}]}").toList

def byHandSettings : Dict ℚ := orDict (readSettings id newSettings newCondition byHand)

set_option maxHeartbeats 4000000 in
/-- Beside `C82_accepted` and `C82_values`: this file is read. -/
example : readSettings id newSettings newCondition byHand = .ok byHandSettings ∧
    valueAt [.sub "background_grid_settings".toList] "lower_bound_xyz".toList byHandSettings = some (.point ⟨-1, 1 / 2, 10⟩) ∧
    valueAt [.sub "general_settings".toList] "echo_level".toList byHandSettings = some (.index 1) ∧
    valueAt [.entry "conditions_settings_list".toList 0] "modulus".toList byHandSettings = some (.double 2) ∧
    valueAt [.entry "conditions_settings_list".toList 1] "modulus".toList byHandSettings = none :=
  ⟨ok_orDict (by decide +kernel), by decide +kernel⟩

end QuESo.Json
