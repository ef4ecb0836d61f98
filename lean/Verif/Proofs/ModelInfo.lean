import Verif.Spec.ModelInfo
import Verif.Proofs.JsonPrecision
import Verif.Props.SettingsFile

/-!
# Lemmas about the report of a model
-/
namespace QuESo.Info
open QuESo.Settings QuESo.Json QuESo.Embedded QuESo.BGrid QuESo.Spec

variable {M : Type _}

/-! ## Checks -/

theorem values_check {decl : Decl} {ks : KeySet} (h : Registered decl ks) {data : List (Option (Val ℚ))} (hl : data.length = decl.length) :
    (values ks data).checkRequired ≠ .ub ∧
    ((values ks data).checkRequired = .ok () ↔ ∀ (i : Nat) nm t, decl[i]? = some (nm, t, true) → data[i]? ≠ some none) := by
  have e : (values ks data).checkRequired = DataSet.checkRequired ⟨ks, data⟩ := by
    simp only [values, Dict.checkRequired, checkData, checkSubs, checkLists]
    cases DataSet.checkRequired (⟨ks, data⟩ : DataSet ℚ) <;> rfl
  rw [e]
  obtain ⟨h1, h2⟩ := data_check (d := (⟨ks, data⟩ : DataSet ℚ)) h hl
  refine ⟨h1, h2.trans ?_⟩
  constructor
  · intro hn i nm t hi hd
    refine hn ⟨nm, ⟨i, t, true⟩, (registered_getKey h _ _).2 hi, rfl, ?_⟩
    simp [DataSet.isSetName, (registered_getKey h nm ⟨i, t, true⟩).2 hi, DataSet.isSet, hd]
  · rintro hn ⟨nm, k, hk, hr, hu⟩
    have hi := (registered_getKey h _ _).1 hk
    rw [hr] at hi
    simp only [DataSet.isSetName, hk, DataSet.isSet] at hu
    refine hn _ _ _ hi ?_
    cases hd : data[k.index]? with
    | none => rw [hd] at hu; cases hu
    | some o =>
      rw [hd] at hu
      cases o with
      | none => rfl
      | some v => simp at hu

theorem values_full {decl : Decl} {ks : KeySet} (h : Registered decl ks) {data : List (Option (Val ℚ))} (hl : data.length = decl.length)
    (hs : none ∉ data) : (values ks data).checkRequired = .ok () :=
  (values_check h hl).2.2 fun _ _ _ _ hd => hs (List.mem_of_getElem? hd)

theorem subs_check {decl : Decl} {ks : KeySet} (h : Registered decl ks) {subs : List (Dict ℚ)} (hl : subs.length = decl.length)
    (hub : ∀ d ∈ subs, d.checkRequired ≠ .ub) :
    checkSubs (visitAll (subs.map some)) (some ks) ≠ .ub ∧
    (checkSubs (visitAll (subs.map some)) (some ks) = .ok () ↔ ∀ d ∈ subs, d.checkRequired = .ok ()) := by
  have hget : ∀ i : Nat, (visitAll (subs.map some))[i]? = (subs[i]?).map fun d : Dict ℚ => some d.checkRequired := by
    intro i; rw [visitAll_get, List.getElem?_map]; cases subs[i]? <;> rfl
  have hmem : ∀ e ∈ ks.map, ∃ d ∈ subs, subs[e.2.index]? = some d := by
    intro e he
    have := (List.getElem?_eq_some_iff.1 (registered_mem h he).2).1
    rw [← hl] at this
    exact ⟨_, List.getElem_mem this, List.getElem?_eq_getElem this⟩
  obtain ⟨h1, h2⟩ := seqAll_spec (fun e : Name × Key =>
      match (visitAll (subs.map some))[e.2.index]? with
      | none => Res.ub
      | some none => .error
      | some (some r) => r) ks.map (by
    intro e he
    obtain ⟨d, hd, hi⟩ := hmem e he
    simp only [hget, hi, Option.map_some]
    exact hub d hd)
  refine ⟨h1, h2.trans ?_⟩
  constructor
  · intro hall d hd
    obtain ⟨i, hi⟩ := List.mem_iff_getElem?.1 hd
    have hlt : i < decl.length := by rw [← hl]; exact (List.getElem?_eq_some_iff.1 hi).1
    obtain ⟨⟨nm, t, r⟩, hx⟩ : ∃ x, decl[i]? = some x := ⟨_, List.getElem?_eq_getElem hlt⟩
    have := hall (nm, ⟨i, t, r⟩) (findKey_some ((registered_getKey h nm ⟨i, t, r⟩).2 hx))
    simpa only [hget, hi, Option.map_some] using this
  · intro hall e he
    obtain ⟨d, hd, hi⟩ := hmem e he
    simp only [hget, hi, Option.map_some]
    exact hall d hd

theorem entries_check {l : List (Dict ℚ)} (h : ∀ d ∈ l, d.checkRequired = .ok ()) : checkEntries (visitAll (l.map some)) = .ok () := by
  rw [visitAll_eq]
  refine (seqAll_spec _ _ ?_).2.2 ?_
  · intro o ho
    obtain ⟨x, hx, rfl⟩ := List.mem_map.1 ho
    obtain ⟨d, hd, rfl⟩ := List.mem_map.1 hx
    simp only [Option.map_some]
    rw [h d hd]; simp
  · intro o ho
    obtain ⟨x, hx, rfl⟩ := List.mem_map.1 ho
    obtain ⟨d, hd, rfl⟩ := List.mem_map.1 hx
    simp only [Option.map_some]
    exact h d hd

/-! ## The report as a dictionary -/

/-- What the report holds. -/
structure Rep (M : Type _) where
  vol : Option (VolumeRun × VolumeInfo ℚ) := none
  total : ℚ := 0
  cond : ℚ := 0
  write : ℚ := 0
  conds : List (ConditionRun M × Nat × List (Segment M ℚ) × ℚ) := []

/-- The report after one more result. -/
def Rep.add (R : Rep M) : Done M → Rep M
  | .volume r vi => { R with vol := some (r, vi), total := R.total + r.total }
  | .condition r id s p => { R with total := R.total + r.time, cond := R.cond + r.time, conds := R.conds ++ [(r, id, s, p)] }
  | .write t => { R with total := R.total + t, write := t }

def geoData : Option (VolumeRun × VolumeInfo ℚ) → List (Option (Val ℚ))
  | none => [none, none]
  | some (r, _) => [some (.bool r.isClosed), some (.double r.inp.volume)]

def quadData : Option (VolumeRun × VolumeInfo ℚ) → List (Option (Val ℚ))
  | none => [none, none, none, none, none]
  | some (_, vi) => [some (.double vi.represented), some (.double vi.percentage), some (.index vi.totPoints),
      some (.double vi.pointsPerFull), some (.double vi.pointsPerTrimmed)]

def gridData : Option (VolumeRun × VolumeInfo ℚ) → List (Option (Val ℚ))
  | none => [none, none, none, none]
  | some (_, vi) => [some (.index vi.numActive), some (.index vi.numTrimmed), some (.index vi.numFull), some (.index vi.numInactive)]

def volTimeData : Option (VolumeRun × VolumeInfo ℚ) → List (Option (Val ℚ))
  | none => [some (.double 0), some (.double 0), some (.double 0), some (.double 0), some (.double 0)]
  | some (r, _) => [some (.double r.total), some (.double r.classification), some (.double (r.intersections / r.threads)),
      some (.double (r.momentFitting / r.threads)), some (.double (if r.inp.usesGgq then r.ggq else 0))]

def condData (c : ConditionRun M × Nat × List (Segment M ℚ) × ℚ) : List (Option (Val ℚ)) :=
  [some (.index c.2.1), some (.double c.1.surfaceArea), some (.double c.2.2.2)]

/-- The dictionary of times. -/
def timeDict (ks : InfoKeys) (total : ℚ) (volT : List (Option (Val ℚ))) (cond write : ℚ) : Dict ℚ :=
  .node (some ⟨ks.time, [some (.double total)]⟩) (some ks.timeSub)
    ([values ks.volumeTime volT, values ks.conditionsTime [some (.double cond)], values ks.writeTime [some (.double write)]].map some) none []

/-- A model info with this content. -/
def shape (ks : InfoKeys) (geo quad grid : List (Option (Val ℚ))) (time : Dict ℚ) (conds : List (Dict ℚ)) : Dict ℚ :=
  .node none (some ks.mainSub) ([values ks.geometry geo, values ks.quadrature quad, values ks.grid grid, time].map some)
    (some ks.mainList) [conds.map some]

/-- The model info of a report. -/
def render (ks : InfoKeys) (R : Rep M) : Dict ℚ :=
  shape ks (geoData R.vol) (quadData R.vol) (gridData R.vol) (timeDict ks R.total (volTimeData R.vol) R.cond R.write)
    (R.conds.map fun c => values ks.condition (condData c))

theorem createModelInfo_eq {ks : InfoKeys} (h : InfoKeysRegistered ks) : createModelInfo ks = .ok (render ks ({} : Rep M)) := by
  simp only [createModelInfo, valuesOnly, new_data h.geometry, new_data h.quadrature, new_data h.grid, new_data h.time,
    new_data h.volumeTime, new_data h.conditionsTime, new_data h.writeTime]
  rfl

theorem createConditionInfo_eq {ks : InfoKeys} (h : InfoKeysRegistered ks) :
    createConditionInfo ks = .ok (values ks.condition [none, none, none]) := by
  simp only [createConditionInfo, valuesOnly, new_data h.condition]; rfl

theorem volTime_full (o : Option (VolumeRun × VolumeInfo ℚ)) : none ∉ volTimeData o ∧ (volTimeData o).length = 5 := by
  cases o <;> simp [volTimeData]

theorem time_check {ks : InfoKeys} (h : InfoKeysRegistered ks) (total cond write : ℚ) {volT : List (Option (Val ℚ))}
    (hl : volT.length = 5) (hs : none ∉ volT) : (timeDict ks total volT cond write).checkRequired = .ok () := by
  have a : DataSet.checkRequired (⟨ks.time, [some (.double total)]⟩ : DataSet ℚ) = .ok () := by
    refine (data_check (d := (⟨ks.time, [some (.double total)]⟩ : DataSet ℚ)) h.time rfl).2.2 ?_
    rintro ⟨nm, k, hk, -, hu⟩
    have hi := (List.getElem?_eq_some_iff.1 ((registered_getKey h.time _ _).1 hk)).1
    have : k.index = 0 := by simp [timeDecl] at hi; omega
    simp only [DataSet.isSetName, hk, DataSet.isSet, this] at hu
    simp at hu
  have hall : ∀ d ∈ [values ks.volumeTime volT, values ks.conditionsTime [some (.double cond)], values ks.writeTime [some (.double write)]],
      d.checkRequired = .ok () := by
    intro d hd
    simp only [List.mem_cons, List.not_mem_nil, or_false] at hd
    rcases hd with rfl | rfl | rfl
    · exact values_full h.volumeTime hl hs
    · exact values_full h.conditionsTime rfl (by simp)
    · exact values_full h.writeTime rfl (by simp)
  have b := (subs_check h.timeSub (subs := [values ks.volumeTime volT, values ks.conditionsTime [some (.double cond)],
    values ks.writeTime [some (.double write)]]) rfl (fun d hd => by rw [hall d hd]; simp)).2.2 hall
  rw [timeDict, Dict.checkRequired, checkData, a, b]
  rfl

theorem checkAt_time {ks : InfoKeys} (h : InfoKeysRegistered ks) (geo quad grid : List (Option (Val ℚ))) (total cond write : ℚ)
    {volT : List (Option (Val ℚ))} (hl : volT.length = 5) (hs : none ∉ volT) (conds : List (Dict ℚ)) :
    checkAt 3 (shape ks geo quad grid (timeDict ks total volT cond write) conds) = .ok () :=
  time_check h total cond write hl hs

/-! ## The calls -/

theorem volume_eq {ks : InfoKeys} (h : InfoKeysRegistered ks) (debug : Bool) (echo : Nat) (r : VolumeRun) (m : Model M) (R : Rep M)
    (hm : m.info = render ks R) : volume debug echo r m =
      match computeVolume debug r.inp r.order m.grid with
      | none => .error
      | some (grid, vi) => .ok { m with grid := grid, info := render ks (R.add (.volume r vi)) } := by
  obtain ⟨g, cs, info, fs⟩ := m
  simp only at hm
  subst hm
  obtain ⟨vol, total, cond, wr, conds⟩ := R
  have h1 : ∃ volT : List (Option (Val ℚ)), (∃ a b c d, volT = [some a, some (.double r.classification), some b, some c, some d]) ∧
      ∃ geo quad grid, infoBefore r (render ks ⟨vol, total, cond, wr, conds⟩) =
        .ok (shape ks geo quad grid (timeDict ks total volT cond wr) (conds.map fun c => values ks.condition (condData c))) ∧
        geo = geoData (some (r, ⟨0, 0, 0, 0, 0, 0, 0, 0, 0⟩)) ∧ quad = quadData vol ∧ grid = gridData vol := by
    cases vol with
    | none => exact ⟨_, ⟨_, _, _, _, rfl⟩, _, _, _, rfl, rfl, rfl, rfl⟩
    | some p => obtain ⟨r', vi'⟩ := p; exact ⟨_, ⟨_, _, _, _, rfl⟩, _, _, _, rfl, rfl, rfl, rfl⟩
  obtain ⟨volT, ⟨a, b, c, d, rfl⟩, geo, quad, grid, hb, rfl, rfl, rfl⟩ := h1
  rw [volume]
  simp only [hb]
  rw [Res.bind]
  cases hc : computeVolume debug r.inp r.order g with
  | none => rfl
  | some p =>
    obtain ⟨g', vi⟩ := p
    simp only
    have h2 : infoAfter r vi (shape ks (geoData (some (r, ⟨0, 0, 0, 0, 0, 0, 0, 0, 0⟩))) (quadData vol) (gridData vol)
        (timeDict ks total [some a, some (.double r.classification), some b, some c, some d] cond wr)
        (conds.map fun c => values ks.condition (condData c))) = .ok (render ks (Rep.add ⟨vol, total, cond, wr, conds⟩ (.volume r vi))) := by
      rw [infoAfter]
      rw [show onSubAt 3 (onSubAt 0 (setAt 0 (.double r.total))) (shape ks (geoData (some (r, ⟨0, 0, 0, 0, 0, 0, 0, 0, 0⟩))) (quadData vol)
          (gridData vol) (timeDict ks total [some a, some (.double r.classification), some b, some c, some d] cond wr)
          (conds.map fun c => values ks.condition (condData c))) =
        .ok (shape ks (geoData (some (r, ⟨0, 0, 0, 0, 0, 0, 0, 0, 0⟩))) (quadData vol)
          (gridData vol) (timeDict ks total [some (.double r.total), some (.double r.classification), some b, some c, some d] cond wr)
          (conds.map fun c => values ks.condition (condData c))) from rfl]
      rw [Res.bind, checkAt_time h _ _ _ _ _ _ rfl (by simp)]
      cases vol with
      | none => rfl
      | some p => obtain ⟨r', vi'⟩ := p; rfl
    rw [h2, Res.bind]
    have h3 : printVolume echo (render ks (Rep.add ⟨vol, total, cond, wr, conds⟩ (.volume r vi))) = .ok () := by
      rw [printVolume]
      have c2 : checkAt 2 (render ks (Rep.add ⟨vol, total, cond, wr, conds⟩ (.volume r vi))) = .ok () :=
        values_full h.grid rfl (by simp [Rep.add, gridData])
      have c1 : checkAt 1 (render ks (Rep.add ⟨vol, total, cond, wr, conds⟩ (.volume r vi))) = .ok () :=
        values_full h.quadrature rfl (by simp [Rep.add, quadData])
      rw [c2, c1]
      split
      · split <;> rfl
      · rfl
    rw [h3]
    rfl

theorem pushed_entry {α : Type _} (l : List α) (a b : α) : (l ++ [a]).set ((l ++ [a]).length - 1) b = l ++ [b] := by
  have : (l ++ [a]).length - 1 = l.length := by simp
  rw [this, List.set_append_right _ _ (le_refl _), Nat.sub_self]; rfl

theorem onEntry_pushed (ks : InfoKeys) (geo quad grid : List (Option (Val ℚ))) (time : Dict ℚ) (l : List (Dict ℚ)) (d d' : Dict ℚ)
    (f : Dict ℚ → Res (Dict ℚ)) (hf : f d = .ok d') :
    onEntryAt 0 l.length f (shape ks geo quad grid time (l ++ [d])) = .ok (shape ks geo quad grid time (l ++ [d'])) := by
  simp only [shape, onEntryAt, List.getElem?_cons_zero, List.map_append, List.map_cons, List.map_nil]
  rw [List.getElem?_append_right (by simp)]
  simp only [List.length_map, Nat.sub_self, List.getElem?_cons_zero, hf, Res.bind, List.set_cons_zero]
  rw [List.set_append_right _ _ (by simp)]
  simp

theorem condition_eq {ks : InfoKeys} (h : InfoKeysRegistered ks) (echo : Nat) (r : ConditionRun M) (m : Model M) (R : Rep M)
    (hm : m.info = render ks R) {id : Nat} (hid : getAt 0 .index r.settings = .ok (.index id)) :
    condition ks echo r m = .ok
      (let res := computeCondition m.grid r.clip r.numTri r.area r.surfaceArea r.order
       { m with conditions := m.conditions ++ [⟨r.settings, R.conds.length, res.1⟩],
                info := render ks (R.add (.condition r id res.1 res.2)) }) := by
  obtain ⟨g, cs, info, fs⟩ := m
  simp only at hm
  subst hm
  obtain ⟨vol, total, cond, wr, conds⟩ := R
  rw [condition, createConditionInfo_eq h, Res.bind, hid, Res.bind, asNat, Res.bind]
  rw [show setAt 0 (.index id) (values ks.condition [none, none, none]) = .ok (values ks.condition [some (.index id), none, none]) from rfl,
    Res.bind]
  rw [show setAt 1 (.double r.surfaceArea) (values ks.condition [some (.index id), none, none]) =
    .ok (values ks.condition [some (.index id), some (.double r.surfaceArea), none]) from rfl, Res.bind]
  rw [show pushAt 0 (values ks.condition [some (.index id), some (.double r.surfaceArea), none]) (render ks ⟨vol, total, cond, wr, conds⟩) =
    .ok (shape ks (geoData vol) (quadData vol) (gridData vol) (timeDict ks total (volTimeData vol) cond wr)
      ((conds.map fun c => values ks.condition (condData c)) ++ [values ks.condition [some (.index id), some (.double r.surfaceArea), none]]))
    by simp [pushAt, render, shape], Res.bind]
  rw [show sizeAt 0 (shape ks (geoData vol) (quadData vol) (gridData vol) (timeDict ks total (volTimeData vol) cond wr)
      ((conds.map fun c => values ks.condition (condData c)) ++ [values ks.condition [some (.index id), some (.double r.surfaceArea), none]])) =
    .ok (conds.length + 1) by simp [sizeAt, shape], Res.bind]
  simp only [Nat.add_sub_cancel]
  generalize hres : computeCondition g r.clip r.numTri r.area r.surfaceArea r.order = res
  have hlen : conds.length = (conds.map fun c => values ks.condition (condData c)).length := by simp
  rw [show onEntryAt 0 conds.length (setAt 2 (.double res.2)) (shape ks (geoData vol) (quadData vol) (gridData vol)
      (timeDict ks total (volTimeData vol) cond wr)
      ((conds.map fun c => values ks.condition (condData c)) ++ [values ks.condition [some (.index id), some (.double r.surfaceArea), none]])) =
    .ok (shape ks (geoData vol) (quadData vol) (gridData vol) (timeDict ks total (volTimeData vol) cond wr)
      ((conds.map fun c => values ks.condition (condData c)) ++ [values ks.condition (condData (r, id, res.1, res.2))])) by
    rw [hlen]; exact onEntry_pushed _ _ _ _ _ _ _ _ _ rfl, Res.bind]
  rw [checkAt_time h _ _ _ _ _ _ (volTime_full vol).2 (volTime_full vol).1, Res.bind]
  rw [show onSubAt 3 (addTime r.time) (shape ks (geoData vol) (quadData vol) (gridData vol) (timeDict ks total (volTimeData vol) cond wr)
      ((conds.map fun c => values ks.condition (condData c)) ++ [values ks.condition (condData (r, id, res.1, res.2))])) =
    .ok (shape ks (geoData vol) (quadData vol) (gridData vol) (timeDict ks (total + r.time) (volTimeData vol) cond wr)
      ((conds.map fun c => values ks.condition (condData c)) ++ [values ks.condition (condData (r, id, res.1, res.2))])) from rfl, Res.bind]
  rw [show ((subAt 3 (shape ks (geoData vol) (quadData vol) (gridData vol) (timeDict ks (total + r.time) (volTimeData vol) cond wr)
      ((conds.map fun c => values ks.condition (condData c)) ++ [values ks.condition (condData (r, id, res.1, res.2))]))).bind (checkAt 1)) =
    .ok () from values_full h.conditionsTime rfl (by simp), Res.bind]
  rw [show onSubAt 3 (onSubAt 1 (addTime r.time)) (shape ks (geoData vol) (quadData vol) (gridData vol) (timeDict ks (total + r.time) (volTimeData vol) cond wr)
      ((conds.map fun c => values ks.condition (condData c)) ++ [values ks.condition (condData (r, id, res.1, res.2))])) =
    .ok (shape ks (geoData vol) (quadData vol) (gridData vol) (timeDict ks (total + r.time) (volTimeData vol) (cond + r.time) wr)
      ((conds.map fun c => values ks.condition (condData c)) ++ [values ks.condition (condData (r, id, res.1, res.2))])) from rfl, Res.bind]
  have hp : printCondition echo (shape ks (geoData vol) (quadData vol) (gridData vol) (timeDict ks (total + r.time) (volTimeData vol) (cond + r.time) wr)
      ((conds.map fun c => values ks.condition (condData c)) ++ [values ks.condition (condData (r, id, res.1, res.2))])) conds.length = .ok () := by
    rw [printCondition]
    split
    · rw [hlen, onEntry_pushed ks _ _ _ _ _ (values ks.condition (condData (r, id, res.1, res.2))) (values ks.condition (condData (r, id, res.1, res.2)))]
      · rfl
      · rw [values_full h.condition rfl (by simp [condData])]
        by_cases he : echo > 1
        · simp only [he, if_true]; rfl
        · simp only [he, if_false]; rfl
    · rfl
  rw [hp, Res.bind]
  simp only [render, Rep.add, List.map_append, List.map_cons, List.map_nil]

/-! ## The file -/

theorem time_writable {ks : InfoKeys} (h : InfoKeysRegistered ks) (R : Rep M) :
    Writable (timeDict ks R.total (volTimeData R.vol) R.cond R.write) := by
  have hmem : ∀ nm ∈ memberNames (some (⟨ks.time, [some (.double R.total)]⟩ : DataSet ℚ)) (some ks.timeSub) none,
      ∃ e ∈ timeDecl ++ timeSubDecl, e.1 = nm := by
    intro nm hnm
    simp only [memberNames, Option.map_some, Option.getD_some, Option.map_none, Option.getD_none, List.append_nil, List.map_append,
      List.mem_append, List.mem_map] at hnm
    rcases hnm with ⟨e, he, rfl⟩ | ⟨e, he, rfl⟩
    · exact ⟨_, List.mem_append_left _ (registered_mem h.time he).1, rfl⟩
    · exact ⟨_, List.mem_append_right _ (registered_mem h.timeSub he).1, rfl⟩
  refine .node ?_ ?_ (by simp) (by simp) (by simp) ?_ ?_ ?_ ?_ (by simp) (by simp)
  · rintro d ⟨⟩; exact ⟨_, h.time, rfl⟩
  · rintro d ⟨⟩; exact ⟨_, h.timeSub, rfl⟩
  · simp only [memberNames, Option.map_some, Option.getD_some, Option.map_none, Option.getD_none, List.append_nil, List.map_append]
    rw [List.nodup_append]
    refine ⟨registered_names_nodup h.time, registered_names_nodup h.timeSub, ?_⟩
    intro a ha b hb
    obtain ⟨e, he, rfl⟩ := List.mem_map.1 ha
    obtain ⟨f, hf, rfl⟩ := List.mem_map.1 hb
    have key : ∀ x ∈ timeDecl, ∀ y ∈ timeSubDecl, x.1 ≠ y.1 := by decide +kernel
    exact key _ (registered_mem h.time he).1 _ (registered_mem h.timeSub hf).1
  · intro nm hnm
    obtain ⟨e, he, rfl⟩ := hmem nm hnm
    have key : ∀ e ∈ timeDecl ++ timeSubDecl, PlainText e.1 := by unfold PlainText; decide +kernel
    exact key e he
  · rintro d ⟨⟩ o ho
    simp only [List.mem_singleton] at ho
    subst ho; trivial
  · intro d hd
    simp only [List.map_cons, List.map_nil, List.mem_cons, Option.some.injEq, List.not_mem_nil, or_false] at hd
    rcases hd with rfl | rfl | rfl
    · refine values_writable h.volumeTime (by unfold PlainText; decide +kernel) (volTime_full _).2 ?_
      cases R.vol <;> simp [volTimeData, WritableVal]
    · exact values_writable h.conditionsTime (by unfold PlainText; decide +kernel) rfl (by simp [WritableVal])
    · exact values_writable h.writeTime (by unfold PlainText; decide +kernel) rfl (by simp [WritableVal])

theorem render_writable {ks : InfoKeys} (h : InfoKeysRegistered ks) (R : Rep M) : Writable (render ks R) := by
  have hmem : ∀ nm ∈ memberNames none (some ks.mainSub) (some ks.mainList),
      ∃ e ∈ Info.mainSubDecl ++ Info.mainListDecl, e.1 = nm := by
    intro nm hnm
    simp only [memberNames, Option.map_some, Option.getD_some, Option.map_none, Option.getD_none, List.nil_append, List.map_append,
      List.mem_append, List.mem_map] at hnm
    rcases hnm with ⟨e, he, rfl⟩ | ⟨e, he, rfl⟩
    · exact ⟨_, List.mem_append_left _ (registered_mem h.mainSub he).1, rfl⟩
    · exact ⟨_, List.mem_append_right _ (registered_mem h.mainList he).1, rfl⟩
  refine .node (by simp) ?_ ?_ (by simp) (by simp) ?_ ?_ (by simp) ?_ (by simp) ?_
  · rintro k ⟨⟩; exact ⟨_, h.mainSub, rfl⟩
  · rintro k ⟨⟩; exact ⟨_, h.mainList, rfl⟩
  · simp only [memberNames, Option.map_some, Option.getD_some, Option.map_none, Option.getD_none, List.nil_append, List.map_append]
    rw [List.nodup_append]
    refine ⟨registered_names_nodup h.mainSub, registered_names_nodup h.mainList, ?_⟩
    intro a ha b hb
    obtain ⟨e, he, rfl⟩ := List.mem_map.1 ha
    obtain ⟨f, hf, rfl⟩ := List.mem_map.1 hb
    have key : ∀ x ∈ Info.mainSubDecl, ∀ y ∈ Info.mainListDecl, x.1 ≠ y.1 := by decide +kernel
    exact key _ (registered_mem h.mainSub he).1 _ (registered_mem h.mainList hf).1
  · intro nm hnm
    obtain ⟨e, he, rfl⟩ := hmem nm hnm
    have key : ∀ e ∈ Info.mainSubDecl ++ Info.mainListDecl, PlainText e.1 := by unfold PlainText; decide +kernel
    exact key e he
  · intro d hd
    simp only [List.map_cons, List.map_nil, List.mem_cons, Option.some.injEq, List.not_mem_nil, or_false] at hd
    rcases hd with rfl | rfl | rfl | rfl
    · refine values_writable h.geometry (by unfold PlainText; decide +kernel) ?_ ?_ <;> cases R.vol <;> simp [geoData, geometryDecl, WritableVal]
    · refine values_writable h.quadrature (by unfold PlainText; decide +kernel) ?_ ?_ <;> cases R.vol <;> simp [quadData, quadratureDecl, WritableVal]
    · refine values_writable h.grid (by unfold PlainText; decide +kernel) ?_ ?_ <;> cases R.vol <;> simp [gridData, Info.gridDecl, WritableVal]
    · exact time_writable h R
  · intro l hl d hd
    simp only [List.mem_singleton] at hl
    subst hl
    simp only [List.map_map, List.mem_map, Function.comp, Option.some.injEq] at hd
    obtain ⟨c, -, rfl⟩ := hd
    exact values_writable h.condition (by unfold PlainText; decide +kernel) rfl (by simp [condData, WritableVal])

theorem write_eq {ks : InfoKeys} (h : InfoKeysRegistered ks) (rnd : ℚ → ℚ) (t : ℚ) (m : Model M) (R : Rep M) (hm : m.info = render ks R) :
    ∃ file, write true t m = .ok { m with info := render ks (R.add (.write t)), files := m.files ++ [file] } ∧
      load rnd file = some (.obj (dictMembers rnd (render ks (R.add (.write t))))) := by
  obtain ⟨file, h1, h2⟩ := load_write (rnd := rnd) (render_writable h (R.add (.write t)))
  refine ⟨file, ?_, h2⟩
  obtain ⟨g, cs, info, fs⟩ := m
  simp only at hm
  subst hm
  obtain ⟨vol, total, cond, wr, conds⟩ := R
  rw [write, if_pos rfl]
  simp only
  rw [show checkAt 3 (render ks ⟨vol, total, cond, wr, conds⟩) = .ok () from
    checkAt_time h _ _ _ _ _ _ (volTime_full vol).2 (volTime_full vol).1 _, Res.bind]
  rw [show onSubAt 3 (addTime t) (render ks ⟨vol, total, cond, wr, conds⟩) = .ok (render ks ⟨vol, total + t, cond, wr, conds⟩) from rfl, Res.bind]
  rw [show onSubAt 3 (onSubAt 2 (setAt 0 (.double t))) (render ks ⟨vol, total + t, cond, wr, conds⟩) =
    .ok (render ks (Rep.add ⟨vol, total, cond, wr, conds⟩ (.write t))) from rfl, Res.bind, h1]
  rfl


/-! ## Looking up values -/

theorem getKey_index {decl : Decl} {ks : KeySet} (h : Registered decl ks) {nm : Name} {k : Key} (hk : ks.getKey nm = some k) :
    (decl.map (·.1))[k.index]? = some nm := by
  rw [List.getElem?_map, (registered_getKey h nm k).1 hk]; rfl

theorem getKey_of_index {decl : Decl} {ks : KeySet} (h : Registered decl ks) {nm : Name} {i : Nat} (hi : (decl.map (·.1))[i]? = some nm) :
    ∃ k, ks.getKey nm = some k ∧ k.index = i := by
  rw [List.getElem?_map] at hi
  obtain ⟨⟨n, t, r⟩, hx, rfl⟩ := Option.map_eq_some_iff.1 hi
  exact ⟨⟨i, t, r⟩, (registered_getKey h _ _).2 hx, rfl⟩

theorem mem_zip_iff {α β : Type _} (l : List α) (l' : List β) (a : α) (b : β) :
    (a, b) ∈ l.zip l' ↔ ∃ i : Nat, l[i]? = some a ∧ l'[i]? = some b := by
  rw [List.mem_iff_getElem?]
  constructor
  · rintro ⟨i, hi⟩
    rw [List.getElem?_zip_eq_some] at hi
    exact ⟨i, hi⟩
  · rintro ⟨i, hi⟩
    exact ⟨i, by rw [List.getElem?_zip_eq_some]; exact hi⟩

theorem child_sub {decl : Decl} {ks : KeySet} (h : Registered decl ks) (data : Option (DataSet ℚ)) (subs : List (Dict ℚ)) (lk : Option KeySet)
    (lists : List (List (Option (Dict ℚ)))) (nm : Name) (d : Dict ℚ) :
    child (.sub nm) (.node data (some ks) (subs.map some) lk lists) = some d ↔ (nm, d) ∈ (decl.map (·.1)).zip subs := by
  rw [mem_zip_iff, child]
  constructor
  · intro hc
    obtain ⟨k, hk, hj⟩ := Option.bind_eq_some_iff.1 hc
    rw [List.getElem?_map, Option.join_eq_some_iff] at hj
    obtain ⟨x, hx, he⟩ := Option.map_eq_some_iff.1 hj
    cases he
    exact ⟨k.index, getKey_index h hk, hx⟩
  · rintro ⟨i, h1, h2⟩
    obtain ⟨k, hk, rfl⟩ := getKey_of_index h h1
    rw [hk, Option.bind_some, List.getElem?_map, h2]; rfl

theorem valueAt_data {decl : Decl} {ks : KeySet} (h : Registered decl ks) (data : List (Option (Val ℚ))) (sk : Option KeySet)
    (subs : List (Option (Dict ℚ))) (lk : Option KeySet) (lists : List (List (Option (Dict ℚ)))) (nm : Name) (v : Val ℚ) :
    valueOf nm (.node (some ⟨ks, data⟩) sk subs lk lists) = some v ↔ (nm, some v) ∈ (decl.map (·.1)).zip data := by
  rw [mem_zip_iff, valueOf]
  constructor
  · intro hc
    obtain ⟨k, hk, hj⟩ := Option.bind_eq_some_iff.1 hc
    exact ⟨k.index, getKey_index h hk, Option.join_eq_some_iff.1 hj⟩
  · rintro ⟨i, h1, h2⟩
    obtain ⟨k, hk, rfl⟩ := getKey_of_index h h1
    rw [hk, Option.bind_some, h2]; rfl

theorem valueAt_leaf {decl : Decl} {ks : KeySet} (h : Registered decl ks) (data : List (Option (Val ℚ))) (p : List Step) (nm : Name) (v : Val ℚ) :
    valueAt p nm (values ks data) = some v ↔ p = [] ∧ (nm, some v) ∈ (decl.map (·.1)).zip data := by
  cases p with
  | nil => rw [valueAt, values, valueAt_data h]; simp
  | cons s p => rw [valueAt_values]; simp

theorem valueAt_time {ks : InfoKeys} (h : InfoKeysRegistered ks) (total cond write : ℚ) (volT : List (Option (Val ℚ))) (p : List Step) (nm : Name) (v : Val ℚ) :
    valueAt p nm (timeDict ks total volT cond write) = some v ↔
      (p = [] ∧ nm = "total".toList ∧ v = .double total) ∨
      (p = [.sub "volume_time_info".toList] ∧ (nm, some v) ∈ (volumeTimeDecl.map (·.1)).zip volT) ∨
      (p = [.sub "conditions_time_info".toList] ∧ nm = "total".toList ∧ v = .double cond) ∨
      (p = [.sub "write_files_time_info".toList] ∧ nm = "total".toList ∧ v = .double write) := by
  cases p with
  | nil =>
    rw [valueAt, timeDict, valueAt_data h.time]
    simp [timeDecl, eq_comm]
  | cons s p =>
    rw [valueAt, Option.bind_eq_some_iff]
    cases s with
    | entry n i => simp [timeDict, child]
    | sub n =>
      have hc : ∀ d, child (.sub n) (timeDict ks total volT cond write) = some d ↔
          (n = "volume_time_info".toList ∧ d = values ks.volumeTime volT) ∨
          (n = "conditions_time_info".toList ∧ d = values ks.conditionsTime [some (.double cond)]) ∨
          (n = "write_files_time_info".toList ∧ d = values ks.writeTime [some (.double write)]) := by
        intro d
        rw [timeDict, child_sub h.timeSub]
        simp only [timeSubDecl, objectKey, List.map_cons, List.map_nil, List.zip_cons_cons, List.zip_nil_right,
          List.mem_cons, List.not_mem_nil, or_false, Prod.mk.injEq]
      simp only [hc]
      constructor
      · rintro ⟨d, ⟨rfl, rfl⟩ | ⟨rfl, rfl⟩ | ⟨rfl, rfl⟩, hv⟩
        · rw [valueAt_leaf h.volumeTime] at hv
          exact .inr (.inl ⟨by rw [hv.1], hv.2⟩)
        · rw [valueAt_leaf h.conditionsTime] at hv
          refine .inr (.inr (.inl ⟨by rw [hv.1], ?_⟩))
          simpa [conditionsTimeDecl] using hv.2
        · rw [valueAt_leaf h.writeTime] at hv
          refine .inr (.inr (.inr ⟨by rw [hv.1], ?_⟩))
          simpa [writeTimeDecl] using hv.2
      · rintro (⟨hp, -⟩ | ⟨hp, hv⟩ | ⟨hp, rfl, rfl⟩ | ⟨hp, rfl, rfl⟩)
        · cases hp
        · cases hp
          exact ⟨_, .inl ⟨rfl, rfl⟩, (valueAt_leaf h.volumeTime _ _ _ _).2 ⟨rfl, hv⟩⟩
        · cases hp
          exact ⟨_, .inr (.inl ⟨rfl, rfl⟩), (valueAt_leaf h.conditionsTime _ _ _ _).2 ⟨rfl, by simp [conditionsTimeDecl]⟩⟩
        · cases hp
          exact ⟨_, .inr (.inr ⟨rfl, rfl⟩), (valueAt_leaf h.writeTime _ _ _ _).2 ⟨rfl, by simp [writeTimeDecl]⟩⟩

/-- The lines of a report. -/
def Rep.lines (R : Rep M) : List Line :=
  (match R.vol with
   | none => volumeTimes 0 0 0 0 0
   | some (r, vi) => volumeLines r vi ++ volumeTimes r.total r.classification (r.intersections / r.threads)
       (r.momentFitting / r.threads) (if r.inp.usesGgq then r.ggq else 0)) ++
  [lineAt ["elapsed_time_info"] "total" (.double R.total),
   lineAt ["elapsed_time_info", "conditions_time_info"] "total" (.double R.cond),
   lineAt ["elapsed_time_info", "write_files_time_info"] "total" (.double R.write)] ++
  (R.conds.mapIdx conditionLines).flatten

theorem child_entry {ks : InfoKeys} (h : InfoKeysRegistered ks) (sk : Option KeySet) (subs : List (Option (Dict ℚ)))
    (l : List (Dict ℚ)) (nm : Name) (i : Nat) (d : Dict ℚ) :
    child (.entry nm i) (.node none sk subs (some ks.mainList) [l.map some]) = some d ↔
      nm = "conditions_infos_list".toList ∧ l[i]? = some d := by
  rw [child]
  constructor
  · intro hc
    obtain ⟨k, hk, hj⟩ := Option.bind_eq_some_iff.1 hc
    have h0 := getKey_index h.mainList hk
    have : k.index = 0 := by
      have := (List.getElem?_eq_some_iff.1 h0).1
      simp [Info.mainListDecl] at this; omega
    rw [this] at h0 hj
    simp only [Info.mainListDecl, objectKey, List.map_cons, List.map_nil, List.getElem?_cons_zero, Option.some.injEq] at h0
    simp only [List.getElem?_cons_zero, Option.bind_some, List.getElem?_map, Option.join_eq_some_iff] at hj
    obtain ⟨x, hx, he⟩ := Option.map_eq_some_iff.1 hj
    cases he
    exact ⟨h0.symm, hx⟩
  · rintro ⟨rfl, h2⟩
    obtain ⟨k, hk, h0⟩ := getKey_of_index h.mainList (i := 0) (nm := "conditions_infos_list".toList) rfl
    rw [hk, Option.bind_some, h0]
    simp [h2]

theorem valueAt_render {ks : InfoKeys} (h : InfoKeysRegistered ks) (R : Rep M) (p : List Step) (nm : Name) (v : Val ℚ) :
    valueAt p nm (render ks R) = some v ↔
      (p = [.sub "embedded_geometry_info".toList] ∧ (nm, some v) ∈ (geometryDecl.map (·.1)).zip (geoData R.vol)) ∨
      (p = [.sub "quadrature_info".toList] ∧ (nm, some v) ∈ (quadratureDecl.map (·.1)).zip (quadData R.vol)) ∨
      (p = [.sub "background_grid_info".toList] ∧ (nm, some v) ∈ (Info.gridDecl.map (·.1)).zip (gridData R.vol)) ∨
      (p = [.sub "elapsed_time_info".toList, .sub "volume_time_info".toList] ∧
        (nm, some v) ∈ (volumeTimeDecl.map (·.1)).zip (volTimeData R.vol)) ∨
      (p = [.sub "elapsed_time_info".toList] ∧ nm = "total".toList ∧ v = .double R.total) ∨
      (p = [.sub "elapsed_time_info".toList, .sub "conditions_time_info".toList] ∧ nm = "total".toList ∧ v = .double R.cond) ∨
      (p = [.sub "elapsed_time_info".toList, .sub "write_files_time_info".toList] ∧ nm = "total".toList ∧ v = .double R.write) ∨
      (∃ i c, p = [.entry "conditions_infos_list".toList i] ∧ R.conds[i]? = some c ∧
        (nm, some v) ∈ (Info.conditionDecl.map (·.1)).zip (condData c)) := by
  cases p with
  | nil => simp [valueAt, render, shape, valueOf]
  | cons s p =>
    rw [valueAt, Option.bind_eq_some_iff]
    cases s with
    | entry n i =>
      simp only [render, shape, child_entry h, List.getElem?_map, Option.map_eq_some_iff]
      constructor
      · rintro ⟨d, ⟨rfl, c, hc, rfl⟩, hv⟩
        rw [valueAt_leaf h.condition] at hv
        obtain ⟨rfl, hv⟩ := hv
        exact .inr (.inr (.inr (.inr (.inr (.inr (.inr ⟨i, c, rfl, hc, hv⟩))))))
      · rintro (⟨hp, -⟩ | ⟨hp, -⟩ | ⟨hp, -⟩ | ⟨hp, -⟩ | ⟨hp, -⟩ | ⟨hp, -⟩ | ⟨hp, -⟩ | ⟨j, c, hp, hc, hv⟩) <;> cases hp
        exact ⟨_, ⟨rfl, c, hc, rfl⟩, (valueAt_leaf h.condition _ _ _ _).2 ⟨rfl, hv⟩⟩
    | sub n =>
      have hc : ∀ d, child (.sub n) (render ks R) = some d ↔
          (n = "embedded_geometry_info".toList ∧ d = values ks.geometry (geoData R.vol)) ∨
          (n = "quadrature_info".toList ∧ d = values ks.quadrature (quadData R.vol)) ∨
          (n = "background_grid_info".toList ∧ d = values ks.grid (gridData R.vol)) ∨
          (n = "elapsed_time_info".toList ∧ d = timeDict ks R.total (volTimeData R.vol) R.cond R.write) := by
        intro d
        rw [render, shape, child_sub h.mainSub]
        simp only [Info.mainSubDecl, objectKey, List.map_cons, List.map_nil, List.zip_cons_cons, List.zip_nil_right,
          List.mem_cons, List.not_mem_nil, or_false, Prod.mk.injEq]
      simp only [hc]
      constructor
      · rintro ⟨d, ⟨rfl, rfl⟩ | ⟨rfl, rfl⟩ | ⟨rfl, rfl⟩ | ⟨rfl, rfl⟩, hv⟩
        · rw [valueAt_leaf h.geometry] at hv
          exact .inl ⟨by rw [hv.1], hv.2⟩
        · rw [valueAt_leaf h.quadrature] at hv
          exact .inr (.inl ⟨by rw [hv.1], hv.2⟩)
        · rw [valueAt_leaf h.grid] at hv
          exact .inr (.inr (.inl ⟨by rw [hv.1], hv.2⟩))
        · rw [valueAt_time h] at hv
          rcases hv with ⟨rfl, hv⟩ | ⟨rfl, hv⟩ | ⟨rfl, hv⟩ | ⟨rfl, hv⟩
          · exact .inr (.inr (.inr (.inr (.inl ⟨rfl, hv⟩))))
          · exact .inr (.inr (.inr (.inl ⟨rfl, hv⟩)))
          · exact .inr (.inr (.inr (.inr (.inr (.inl ⟨rfl, hv⟩)))))
          · exact .inr (.inr (.inr (.inr (.inr (.inr (.inl ⟨rfl, hv⟩))))))
      · rintro (⟨hp, hv⟩ | ⟨hp, hv⟩ | ⟨hp, hv⟩ | ⟨hp, hv⟩ | ⟨hp, hv⟩ | ⟨hp, hv⟩ | ⟨hp, hv⟩ | ⟨j, c, hp, hc, hv⟩) <;> cases hp
        · exact ⟨_, .inl ⟨rfl, rfl⟩, (valueAt_leaf h.geometry _ _ _ _).2 ⟨rfl, hv⟩⟩
        · exact ⟨_, .inr (.inl ⟨rfl, rfl⟩), (valueAt_leaf h.quadrature _ _ _ _).2 ⟨rfl, hv⟩⟩
        · exact ⟨_, .inr (.inr (.inl ⟨rfl, rfl⟩)), (valueAt_leaf h.grid _ _ _ _).2 ⟨rfl, hv⟩⟩
        · exact ⟨_, .inr (.inr (.inr ⟨rfl, rfl⟩)), (valueAt_time h _ _ _ _ _ _ _).2 (.inr (.inl ⟨rfl, hv⟩))⟩
        · exact ⟨_, .inr (.inr (.inr ⟨rfl, rfl⟩)), (valueAt_time h _ _ _ _ _ _ _).2 (.inl ⟨rfl, hv⟩)⟩
        · exact ⟨_, .inr (.inr (.inr ⟨rfl, rfl⟩)), (valueAt_time h _ _ _ _ _ _ _).2 (.inr (.inr (.inl ⟨rfl, hv⟩)))⟩
        · exact ⟨_, .inr (.inr (.inr ⟨rfl, rfl⟩)), (valueAt_time h _ _ _ _ _ _ _).2 (.inr (.inr (.inr ⟨rfl, hv⟩)))⟩

theorem mem_conditions (l : List (ConditionRun M × Nat × List (Segment M ℚ) × ℚ)) (p : List Step) (nm : Name) (v : Val ℚ) :
    (p, nm, v) ∈ (l.mapIdx conditionLines).flatten ↔
      ∃ i c, p = [.entry "conditions_infos_list".toList i] ∧ l[i]? = some c ∧
        (nm, some v) ∈ (Info.conditionDecl.map (·.1)).zip (condData c) := by
  have hl : ∀ i c, (p, nm, v) ∈ conditionLines i c ↔ p = [.entry "conditions_infos_list".toList i] ∧
      (nm, some v) ∈ (Info.conditionDecl.map (·.1)).zip (condData (M := M) c) := by
    intro i c
    simp only [conditionLines, Info.conditionDecl, condData, List.map_cons, List.map_nil, List.zip_cons_cons, List.zip_nil_right,
      List.mem_cons, List.not_mem_nil, or_false, Prod.mk.injEq, Option.some.injEq]
    tauto
  rw [List.mem_flatten]
  constructor
  · rintro ⟨x, hx, hp⟩
    obtain ⟨i, hi⟩ := List.mem_iff_getElem?.1 hx
    rw [List.getElem?_mapIdx] at hi
    obtain ⟨c, hc, rfl⟩ := Option.map_eq_some_iff.1 hi
    exact ⟨i, c, ((hl i c).1 hp).1, hc, ((hl i c).1 hp).2⟩
  · rintro ⟨i, c, h1, hc, h2⟩
    refine ⟨conditionLines i c, List.mem_iff_getElem?.2 ⟨i, ?_⟩, (hl i c).2 ⟨h1, h2⟩⟩
    rw [List.getElem?_mapIdx, hc]; rfl

theorem render_lines {ks : InfoKeys} (h : InfoKeysRegistered ks) (R : Rep M) (p : List Step) (nm : Name) (v : Val ℚ) :
    valueAt p nm (render ks R) = some v ↔ (p, nm, v) ∈ R.lines := by
  rw [valueAt_render h, Rep.lines, List.mem_append, List.mem_append, mem_conditions]
  obtain ⟨vol, total, cond, wr, conds⟩ := R
  cases vol with
  | none =>
    simp only [geometryDecl, geoData, quadratureDecl, quadData, Info.gridDecl, gridData, volumeTimeDecl, volTimeData, volumeTimes,
      lineAt, List.map_cons, List.map_nil, List.zip_cons_cons, List.zip_nil_right,
      List.mem_cons, List.not_mem_nil, or_false, Prod.mk.injEq, Option.some.injEq, reduceCtorEq, and_false, false_or, or_assoc, and_or_left]
  | some q =>
    obtain ⟨r, vi⟩ := q
    simp only [geometryDecl, geoData, quadratureDecl, quadData, Info.gridDecl, gridData, volumeTimeDecl, volTimeData, volumeTimes,
      volumeLines, lineAt, List.map_cons, List.map_nil, List.zip_cons_cons, List.zip_nil_right, List.mem_append,
      List.mem_cons, List.not_mem_nil, or_false, Prod.mk.injEq, Option.some.injEq, or_assoc, and_or_left]

/-! ## Declared types -/

/-- Every value has the declared type. -/
def AllTyped (d : Dict ℚ) : Prop := ∀ p nm v, valueAt p nm d = some v → declaredAt p nm d = some v.ty

theorem allTyped_node {d : Dict ℚ} (h1 : ∀ nm v, valueOf nm d = some v → declaredOf nm d = some v.ty)
    (h2 : ∀ s d', child s d = some d' → AllTyped d') : AllTyped d := by
  intro p nm v hv
  cases p with
  | nil => exact h1 nm v hv
  | cons s p =>
    rw [valueAt, Option.bind_eq_some_iff] at hv
    obtain ⟨d', hd, hv⟩ := hv
    rw [declaredAt, hd]
    exact h2 s d' hd p nm v hv

theorem typed_data {decl : Decl} {ks : KeySet} (h : Registered decl ks) {data : List (Option (Val ℚ))}
    (ht : List.Forall₂ (fun (x : KeyDecl) (o : Option (Val ℚ)) => ∀ v, o = some v → v.ty = x.2.1) decl data) (sk : Option KeySet)
    (subs : List (Option (Dict ℚ))) (lk : Option KeySet) (lists : List (List (Option (Dict ℚ)))) (nm : Name) (v : Val ℚ)
    (hv : valueOf nm (.node (some ⟨ks, data⟩) sk subs lk lists) = some v) :
    declaredOf nm (.node (some ⟨ks, data⟩) sk subs lk lists) = some v.ty := by
  rw [valueOf] at hv
  obtain ⟨k, hk, hj⟩ := Option.bind_eq_some_iff.1 hv
  have hj := Option.join_eq_some_iff.1 hj
  have hd := (registered_getKey h nm k).1 hk
  rw [declaredOf]
  simp only
  rw [hk]
  obtain ⟨h1, e1⟩ := List.getElem?_eq_some_iff.1 hd
  obtain ⟨h2, e2⟩ := List.getElem?_eq_some_iff.1 hj
  have := (List.forall₂_iff_get.1 ht).2 k.index h1 h2
  simp only [List.get_eq_getElem, e1, e2] at this
  rw [this v rfl]; rfl

theorem typed_values {decl : Decl} {ks : KeySet} (h : Registered decl ks) {data : List (Option (Val ℚ))}
    (ht : List.Forall₂ (fun (x : KeyDecl) (o : Option (Val ℚ)) => ∀ v, o = some v → v.ty = x.2.1) decl data) : AllTyped (values ks data) := by
  refine allTyped_node (fun nm v hv => typed_data h ht _ _ _ _ nm v hv) (fun s d' hd => ?_)
  cases s <;> simp [values, child] at hd

theorem typed_render {ks : InfoKeys} (h : InfoKeysRegistered ks) (R : Rep M) : AllTyped (render ks R) := by
  refine allTyped_node (fun nm v hv => by simp [render, shape, valueOf] at hv) (fun s d' hd => ?_)
  cases s with
  | entry n i =>
    simp only [render, shape, child_entry h, List.getElem?_map, Option.map_eq_some_iff] at hd
    obtain ⟨-, c, -, rfl⟩ := hd
    refine typed_values h.condition ?_
    simp [Info.conditionDecl, condData, Val.ty]
  | sub n =>
    rw [render, shape, child_sub h.mainSub] at hd
    simp only [Info.mainSubDecl, objectKey, List.map_cons, List.map_nil, List.zip_cons_cons, List.zip_nil_right,
      List.mem_cons, List.not_mem_nil, or_false, Prod.mk.injEq] at hd
    rcases hd with ⟨-, rfl⟩ | ⟨-, rfl⟩ | ⟨-, rfl⟩ | ⟨-, rfl⟩
    · refine typed_values h.geometry ?_
      cases R.vol <;> simp [geometryDecl, geoData, Val.ty]
    · refine typed_values h.quadrature ?_
      cases R.vol <;> simp [quadratureDecl, quadData, Val.ty]
    · refine typed_values h.grid ?_
      cases R.vol <;> simp [Info.gridDecl, gridData, Val.ty]
    · refine allTyped_node (fun nm v hv => typed_data h.time (by simp [timeDecl, Val.ty]) _ _ _ _ nm v hv) (fun s d' hd => ?_)
      cases s with
      | entry n i => simp [timeDict, child] at hd
      | sub n =>
        rw [timeDict, child_sub h.timeSub] at hd
        simp only [timeSubDecl, objectKey, List.map_cons, List.map_nil, List.zip_cons_cons, List.zip_nil_right,
          List.mem_cons, List.not_mem_nil, or_false, Prod.mk.injEq] at hd
        rcases hd with ⟨-, rfl⟩ | ⟨-, rfl⟩ | ⟨-, rfl⟩
        · refine typed_values h.volumeTime ?_
          cases R.vol <;> simp [volumeTimeDecl, volTimeData, Val.ty]
        · refine typed_values h.conditionsTime ?_
          simp [conditionsTimeDecl, Val.ty]
        · refine typed_values h.writeTime ?_
          simp [writeTimeDecl, Val.ty]

/-! ## Any sequence of calls -/

/-- The id of a condition is read if and only if it is set. -/
theorem condition_id {rnd : ℚ → ℚ} {ks : SettingsKeys} (hk : KeysRegistered ks) {c : Dict ℚ} (hc : IsCondition rnd ks c) :
    getAt 0 .index c = match conditionId c with
      | some id => .ok (.index id)
      | none => .error := by
  obtain ⟨data, rfl, hl⟩ := settingsOf_values (isCondition_of hk hc)
  simp only [List.length_replicate] at hl
  have hv : valueOf "condition_id".toList (values ks.condition data) = (data[0]?).join := by
    have : ks.condition.getKey "condition_id".toList = some ⟨0, .index, true⟩ := (registered_getKey hk.condition _ _).2 rfl
    rw [values, valueOf, this]; rfl
  rw [conditionId, hv]
  match data, hl with
  | o :: l, hl =>
    rw [values, getAt, DataSet.getRequired]
    simp only [List.getElem?_cons_zero, Option.join_some]
    cases o with
    | none => rfl
    | some v => cases v <;> rfl

theorem Rep.fold_spec (log : List (Done M)) : ∀ R : Rep M,
    (log.foldl Rep.add R).vol = (lastVolume log).or R.vol ∧
    (log.foldl Rep.add R).total = R.total + (log.map Done.time).sum ∧
    (log.foldl Rep.add R).cond = R.cond + ((conditionsOf log).map fun c => c.1.time).sum ∧
    (log.foldl Rep.add R).write = (writesOf log).getLastD R.write ∧
    (log.foldl Rep.add R).conds = R.conds ++ conditionsOf log := by
  induction log with
  | nil => intro R; simp [lastVolume, volumesOf, writesOf, conditionsOf]
  | cons x log ih =>
    intro R
    obtain ⟨h1, h2, h3, h4, h5⟩ := ih (R.add x)
    rw [List.foldl_cons, h1, h2, h3, h4, h5]
    cases x with
    | volume r vi =>
      refine ⟨?_, ?_, rfl, rfl, rfl⟩
      · simp only [lastVolume, volumesOf, List.filterMap_cons, List.getLast?_cons, Rep.add]
        cases (List.filterMap _ log).getLast? <;> rfl
      · simp only [Rep.add, List.map_cons, List.sum_cons, Done.time]; ring
    | condition r id s p =>
      refine ⟨rfl, ?_, ?_, rfl, ?_⟩
      · simp only [Rep.add, List.map_cons, List.sum_cons, Done.time]; ring
      · simp only [Rep.add, conditionsOf, List.filterMap_cons, List.map_cons, List.sum_cons]; ring
      · simp only [Rep.add, conditionsOf, List.filterMap_cons, List.append_assoc, List.singleton_append]
    | write t =>
      refine ⟨rfl, ?_, rfl, ?_, rfl⟩
      · simp only [Rep.add, List.map_cons, List.sum_cons, Done.time]; ring
      · simp only [Rep.add, writesOf, List.filterMap_cons]
        cases (List.filterMap _ log) <;> rfl

theorem Rep.fold_lines (log : List (Done M)) : (log.foldl Rep.add ({} : Rep M)).lines = reportLines log := by
  obtain ⟨h1, h2, h3, h4, h5⟩ := Rep.fold_spec log ({} : Rep M)
  rw [Rep.lines, reportLines, h1, h2, h3, h4, h5, lastWrite]
  simp only [Option.or_none, zero_add, List.nil_append]
  rfl

theorem write_false (t : ℚ) (m : Model M) : write false t m = .ok m := rfl

/-- What a sequence of calls does. -/
theorem run_spec {ks : InfoKeys} (h : InfoKeysRegistered ks) (debug : Bool) (echo : Nat) (writes : Bool) (calls : List (Call M)) :
    ConditionsMade calls → ∀ (m : Model M) (R : Rep M), m.info = render ks R →
    (resultsOf debug writes calls m.grid = none → run ks debug echo writes calls m = .error) ∧
    (∀ g log, resultsOf debug writes calls m.grid = some (g, log) → ∃ files,
      run ks debug echo writes calls m = .ok ⟨g, m.conditions ++ (conditionsOf log).mapIdx
        (fun i c => ⟨c.1.settings, R.conds.length + i, c.2.2.1⟩), render ks (log.foldl Rep.add R), m.files ++ files⟩) := by
  induction calls with
  | nil =>
    intro _ m R hm
    refine ⟨by simp [resultsOf], fun g log hr => ⟨[], ?_⟩⟩
    rw [resultsOf] at hr
    cases hr
    rw [run]
    simp [conditionsOf, ← hm]
  | cons c calls ih =>
    intro hc m R hm
    have hc' : ConditionsMade calls := fun r hr => hc r (List.mem_cons_of_mem _ hr)
    rw [run]
    cases c with
    | volume r =>
      rw [step, volume_eq h debug echo r m R hm, resultsOf]
      cases hv : computeVolume debug r.inp r.order m.grid with
      | none => exact ⟨fun _ => rfl, fun g log hr => by cases hr⟩
      | some x =>
        obtain ⟨g', vi⟩ := x
        simp only [Option.bind_some, Res.bind]
        obtain ⟨i1, i2⟩ := ih hc' { m with grid := g', info := render ks (R.add (.volume r vi)) } _ rfl
        simp only at i1 i2
        refine ⟨fun hn => i1 (Option.map_eq_none_iff.1 hn), fun g log hr => ?_⟩
        obtain ⟨⟨g1, log1⟩, hy, he⟩ := Option.map_eq_some_iff.1 hr
        cases he
        exact i2 _ _ hy
    | condition r =>
      obtain ⟨rnd, sk, hk, hset⟩ := hc r List.mem_cons_self
      have hid := condition_id hk hset
      rw [step, resultsOf]
      cases hi : conditionId r.settings with
      | none =>
        rw [hi] at hid
        refine ⟨fun _ => ?_, fun g log hr => by cases hr⟩
        rw [condition, createConditionInfo_eq h, Res.bind, hid]
        rfl
      | some id =>
        rw [hi] at hid
        rw [condition_eq h echo r m R hm hid]
        simp only [Option.bind_some, Res.bind]
        generalize computeCondition m.grid r.clip r.numTri r.area r.surfaceArea r.order = res
        obtain ⟨i1, i2⟩ := ih hc'
          ⟨m.grid, m.conditions ++ [⟨r.settings, R.conds.length, res.1⟩], render ks (R.add (.condition r id res.1 res.2)), m.files⟩ _ rfl
        simp only at i1 i2
        refine ⟨fun hn => i1 (Option.map_eq_none_iff.1 hn), fun g log hr => ?_⟩
        obtain ⟨⟨g1, log1⟩, hy, he⟩ := Option.map_eq_some_iff.1 hr
        cases he
        obtain ⟨files, hf⟩ := i2 _ _ hy
        refine ⟨files, hf.trans ?_⟩
        simp only [conditionsOf, List.filterMap_cons, List.mapIdx_cons, List.append_assoc, List.singleton_append, Nat.add_zero,
          List.foldl_cons]
        congr 4
        apply List.mapIdx_eq_iff.2
        intro i
        rw [List.getElem?_mapIdx]
        simp only [Rep.add, List.length_append, List.length_cons, List.length_nil]
        have : ∀ a : Nat, a + (0 + 1) + i = a + (i + 1) := fun a => by omega
        simp only [this]
    | write t =>
      rw [step, resultsOf]
      cases writes with
      | false =>
        rw [write_false, Res.bind]
        obtain ⟨i1, i2⟩ := ih hc' m R hm
        refine ⟨fun hn => i1 (Option.map_eq_none_iff.1 hn), fun g log hr => ?_⟩
        obtain ⟨⟨g1, log1⟩, hy, he⟩ := Option.map_eq_some_iff.1 hr
        cases he
        exact i2 _ _ hy
      | true =>
        obtain ⟨file, hw, -⟩ := write_eq h (fun x => x) t m R hm
        rw [hw, Res.bind]
        obtain ⟨i1, i2⟩ := ih hc' { m with info := render ks (R.add (.write t)), files := m.files ++ [file] } _ rfl
        simp only at i1 i2
        refine ⟨fun hn => i1 (Option.map_eq_none_iff.1 hn), fun g log hr => ?_⟩
        obtain ⟨⟨g1, log1⟩, hy, he⟩ := Option.map_eq_some_iff.1 hr
        cases he
        obtain ⟨files, hf⟩ := i2 _ _ hy
        exact ⟨file :: files, by rw [hf]; simp [conditionsOf, Rep.add]⟩

end QuESo.Info
