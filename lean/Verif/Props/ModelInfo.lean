import Verif.Proofs.ModelInfo
import Verif.Props.EmbeddedModel

/-!
# The report of a model (`ModelInfo`, `model_info.json`): C102
-/
namespace QuESo.Info
open QuESo.Settings QuESo.Json QuESo.Embedded QuESo.BGrid QuESo.Spec

variable {M : Type _}

/-- A new model has an empty grid, no conditions and no files. -/
theorem newModel_eq {ks : InfoKeys} (h : InfoKeysRegistered ks) : newModel ks = .ok ⟨{}, ([] : List (Cond M)), render ks ({} : Rep M), []⟩ := by
  rw [newModel, createModelInfo_eq (M := M) h]; rfl

/-- Creating a model and any sequence of volume computations, conditions and writings never has undefined behaviour, and every call
succeeds if and only if every volume computation does and every condition has an id. -/
theorem C102_runs {ks : InfoKeys} (h : InfoKeysRegistered ks) (debug : Bool) (echo : Nat) (writes : Bool) {calls : List (Call M)}
    (hc : ConditionsMade calls) :
    (newModel ks).bind (run ks debug echo writes calls) ≠ .ub ∧
    ((∃ m, (newModel ks).bind (run ks debug echo writes calls) = .ok m) ↔ (resultsOf debug writes calls {}).isSome) := by
  rw [newModel_eq h, Res.bind]
  obtain ⟨h1, h2⟩ := run_spec h debug echo writes calls hc ⟨{}, [], render ks ({} : Rep M), []⟩ {} rfl
  simp only at h1 h2
  cases hr : resultsOf debug writes calls {} with
  | none =>
    rw [h1 hr]
    refine ⟨by simp, ?_, by simp⟩
    rintro ⟨m, hm⟩; cases hm
  | some x =>
    obtain ⟨files, hf⟩ := h2 x.1 x.2 hr
    rw [hf]
    exact ⟨by simp, fun _ => rfl, fun _ => ⟨_, rfl⟩⟩

/-- A model made by calls, and what the calls gave. -/
def Made (ks : InfoKeys) (debug : Bool) (echo : Nat) (writes : Bool) (calls : List (Call M)) (m : Model M) : Prop :=
  ConditionsMade calls ∧ (newModel ks).bind (run ks debug echo writes calls) = .ok m

theorem made_spec {ks : InfoKeys} (h : InfoKeysRegistered ks) {debug : Bool} {echo : Nat} {writes : Bool} {calls : List (Call M)}
    {m : Model M} (hm : Made ks debug echo writes calls m) :
    ∃ g log files, resultsOf debug writes calls {} = some (g, log) ∧
      m = ⟨g, (conditionsOf log).mapIdx (fun i c => ⟨c.1.settings, i, c.2.2.1⟩), render ks (log.foldl Rep.add {}), files⟩ := by
  obtain ⟨hc, hm⟩ := hm
  rw [newModel_eq h, Res.bind] at hm
  obtain ⟨h1, h2⟩ := run_spec h debug echo writes calls hc ⟨{}, [], render ks ({} : Rep M), []⟩ {} rfl
  simp only at h1 h2
  cases hr : resultsOf debug writes calls {} with
  | none => rw [h1 hr] at hm; cases hm
  | some x =>
    obtain ⟨files, hf⟩ := h2 x.1 x.2 hr
    rw [hf] at hm
    refine ⟨x.1, x.2, files, rfl, ?_⟩
    rw [← Res.ok.inj hm]
    simp

/-- After any calls the report holds exactly these values: the numbers of the last volume computation; the total time, the time for
conditions and the time of the last writing; and id, area and part of the area in active elements of every condition, in order. -/
theorem C102_report {ks : InfoKeys} (h : InfoKeysRegistered ks) {debug : Bool} {echo : Nat} {writes : Bool} {calls : List (Call M)}
    {m : Model M} (hm : Made ks debug echo writes calls m) :
    ∃ log, resultsOf debug writes calls {} = some (m.grid, log) ∧
      ∀ p nm v, valueAt p nm m.info = some v ↔ (p, nm, v) ∈ reportLines log := by
  obtain ⟨g, log, files, hr, rfl⟩ := made_spec h hm
  refine ⟨log, hr, fun p nm v => ?_⟩
  rw [← Rep.fold_lines]
  exact render_lines h _ p nm v

/-- Every value of the report has the type that is declared for its key, so it can be read with the getter for this type. -/
theorem C102_types {ks : InfoKeys} (h : InfoKeysRegistered ks) {debug : Bool} {echo : Nat} {writes : Bool} {calls : List (Call M)}
    {m : Model M} (hm : Made ks debug echo writes calls m) {p : List Step} {nm : Name} {v : Val ℚ} (hv : valueAt p nm m.info = some v) :
    declaredAt p nm m.info = some v.ty := by
  obtain ⟨g, log, files, hr, rfl⟩ := made_spec h hm
  exact typed_render h _ p nm v hv

/-- The conditions of the model are those of the calls, in order, each with its own entry of the report. -/
theorem C102_conditions {ks : InfoKeys} (h : InfoKeysRegistered ks) {debug : Bool} {echo : Nat} {writes : Bool} {calls : List (Call M)}
    {m : Model M} (hm : Made ks debug echo writes calls m) {i : Nat} {c : Cond M} (hc : m.conditions[i]? = some c) :
    ∃ log r id percentage, resultsOf debug writes calls {} = some (m.grid, log) ∧
      (conditionsOf log)[i]? = some (r, id, c.segments, percentage) ∧ c.settings = r.settings ∧ conditionId c.settings = some id ∧ c.info = i ∧
      valueAt [.entry "conditions_infos_list".toList c.info] "condition_id".toList m.info = some (.index id) ∧
      valueAt [.entry "conditions_infos_list".toList c.info] "surf_area".toList m.info = some (.double r.surfaceArea) ∧
      valueAt [.entry "conditions_infos_list".toList c.info] "perc_surf_area_in_active_domain".toList m.info = some (.double percentage) := by
  obtain ⟨g, log, files, hr, rfl⟩ := made_spec h hm
  simp only [List.getElem?_mapIdx, Option.map_eq_some_iff] at hc
  obtain ⟨⟨r, id, s, p⟩, hi, rfl⟩ := hc
  have hid : ∀ (calls : List (Call M)) g0 g log, resultsOf debug writes calls g0 = some (g, log) →
      ∀ q ∈ conditionsOf log, conditionId q.1.settings = some q.2.1 := by
    intro calls
    induction calls with
    | nil => intro g0 g log hr; rw [resultsOf] at hr; cases hr; simp [conditionsOf, volumesOf, writesOf]
    | cons c calls ih =>
      intro g0 g log hr
      cases c with
      | volume v =>
        rw [resultsOf] at hr
        obtain ⟨x, -, hx⟩ := Option.bind_eq_some_iff.1 hr
        obtain ⟨y, hy, he⟩ := Option.map_eq_some_iff.1 hx
        cases he
        have := ih _ _ _ hy
        exact this
      | condition v =>
        rw [resultsOf] at hr
        obtain ⟨x, hid, hx⟩ := Option.bind_eq_some_iff.1 hr
        obtain ⟨y, hy, he⟩ := Option.map_eq_some_iff.1 hx
        cases he
        simp only [conditionsOf, List.filterMap_cons, List.mem_cons, forall_eq_or_imp]
        exact ⟨hid, ih _ _ _ hy⟩
      | write t =>
        rw [resultsOf] at hr
        obtain ⟨y, hy, he⟩ := Option.map_eq_some_iff.1 hr
        cases he
        have := ih _ _ _ hy
        cases writes <;> exact this
  have hl : ∀ x ∈ conditionLines i (r, id, s, p), x ∈ reportLines log := by
    intro x hx
    rw [reportLines]
    refine List.mem_append_right _ (List.mem_flatten.2 ⟨_, List.mem_iff_getElem?.2 ⟨i, ?_⟩, hx⟩)
    rw [List.getElem?_mapIdx, hi]; rfl
  refine ⟨log, r, id, p, hr, hi, rfl, hid _ _ _ _ hr _ (List.mem_of_getElem? hi), rfl, ?_, ?_, ?_⟩ <;>
    refine (render_lines h _ _ _ _).2 ?_ <;> rw [Rep.fold_lines] <;> apply hl <;> simp [conditionLines]

/-- The number of conditions is the number of calls that made one. -/
theorem C102_count {ks : InfoKeys} (h : InfoKeysRegistered ks) {debug : Bool} {echo : Nat} {writes : Bool} {calls : List (Call M)}
    {m : Model M} (hm : Made ks debug echo writes calls m) :
    m.conditions.length = (calls.filter Call.isCondition).length := by
  obtain ⟨g, log, files, hr, rfl⟩ := made_spec h hm
  simp only [List.length_mapIdx]
  clear hm
  generalize ({} : State (Elem ℚ)) = g0 at hr
  induction calls generalizing g0 g log with
  | nil => rw [resultsOf] at hr; cases hr; rfl
  | cons c calls ih =>
    cases c with
    | volume v =>
      rw [resultsOf] at hr
      obtain ⟨x, -, hx⟩ := Option.bind_eq_some_iff.1 hr
      obtain ⟨y, hy, he⟩ := Option.map_eq_some_iff.1 hx
      cases he
      have := ih _ _ _ hy
      exact this
    | condition v =>
      rw [resultsOf] at hr
      obtain ⟨x, hid, hx⟩ := Option.bind_eq_some_iff.1 hr
      obtain ⟨y, hy, he⟩ := Option.map_eq_some_iff.1 hx
      cases he
      simp only [conditionsOf, List.filterMap_cons, List.filter_cons, Call.isCondition, List.length_cons, if_true]
      exact congrArg (· + 1) (ih _ _ _ hy)
    | write t =>
      rw [resultsOf] at hr
      obtain ⟨y, hy, he⟩ := Option.map_eq_some_iff.1 hr
      cases he
      have := ih _ _ _ hy
      cases writes <;> exact this

theorem render_check {ks : InfoKeys} (h : InfoKeysRegistered ks) (R : Rep M) :
    (render ks R).checkRequired ≠ .ub ∧ ((render ks R).checkRequired = .ok () ↔ R.vol.isSome) := by
  have hgeo : (geoData R.vol).length = 2 := by cases R.vol <;> rfl
  have hquad : (quadData R.vol).length = 5 := by cases R.vol <;> rfl
  have hgrid : (gridData R.vol).length = 4 := by cases R.vol <;> rfl
  have htime : (timeDict ks R.total (volTimeData R.vol) R.cond R.write).checkRequired = .ok () :=
    time_check h _ _ _ (volTime_full R.vol).2 (volTime_full R.vol).1
  have hent : checkEntries (visitAll ((R.conds.map fun c => values ks.condition (condData c)).map some)) = .ok () := by
    apply entries_check
    intro d hd
    obtain ⟨c, -, rfl⟩ := List.mem_map.1 hd
    exact values_full h.condition rfl (by simp [condData])
  obtain ⟨h1, h2⟩ := subs_check h.mainSub (subs := [values ks.geometry (geoData R.vol), values ks.quadrature (quadData R.vol),
      values ks.grid (gridData R.vol), timeDict ks R.total (volTimeData R.vol) R.cond R.write]) rfl (by
    intro d hd
    simp only [List.mem_cons, List.not_mem_nil, or_false] at hd
    rcases hd with rfl | rfl | rfl | rfl
    · exact (values_check h.geometry hgeo).1
    · exact (values_check h.quadrature hquad).1
    · exact (values_check h.grid hgrid).1
    · rw [htime]; simp)
  have hlist : checkLists (visitLists [(R.conds.map fun c => values ks.condition (condData c)).map some]) (some ks.mainList) = .ok () := by
    rw [checkLists]
    refine (seqAll_spec _ _ ?_).2.2 ?_ <;>
    · intro e he
      have hi := (List.getElem?_eq_some_iff.1 (registered_mem h.mainList he).2).1
      have : e.2.index = 0 := by simp [Info.mainListDecl] at hi; omega
      simp only [this, visitLists, List.getElem?_cons_zero, hent]
      try simp
  have e : (render ks R).checkRequired = checkSubs (visitAll ([values ks.geometry (geoData R.vol), values ks.quadrature (quadData R.vol),
      values ks.grid (gridData R.vol), timeDict ks R.total (volTimeData R.vol) R.cond R.write].map some)) (some ks.mainSub) := by
    rw [render, shape, Dict.checkRequired, checkData, hlist]
    cases checkSubs (visitAll ([values ks.geometry (geoData R.vol), values ks.quadrature (quadData R.vol),
      values ks.grid (gridData R.vol), timeDict ks R.total (volTimeData R.vol) R.cond R.write].map some)) (some ks.mainSub) <;> rfl
  rw [e]
  refine ⟨h1, h2.trans ?_⟩
  constructor
  · intro hall
    cases hv : R.vol with
    | some _ => rfl
    | none =>
      have := (values_check h.geometry hgeo).2.1 (hall _ List.mem_cons_self) 0 _ _ rfl
      rw [hv] at this
      exact absurd rfl this
  · intro hs d hd
    obtain ⟨⟨r, vi⟩, hv⟩ := Option.isSome_iff_exists.1 hs
    simp only [List.mem_cons, List.not_mem_nil, or_false] at hd
    rcases hd with rfl | rfl | rfl | rfl
    · exact values_full h.geometry hgeo (by rw [hv]; simp [geoData])
    · exact values_full h.quadrature hquad (by rw [hv]; simp [quadData])
    · exact values_full h.grid hgrid (by rw [hv]; simp [gridData])
    · exact htime

/-- The report is complete (`CheckRequired` succeeds) if and only if a volume was computed. -/
theorem C102_complete {ks : InfoKeys} (h : InfoKeysRegistered ks) {debug : Bool} {echo : Nat} {writes : Bool} {calls : List (Call M)}
    {m : Model M} (hm : Made ks debug echo writes calls m) :
    m.info.checkRequired ≠ .ub ∧ (m.info.checkRequired = .ok () ↔ ∃ r, Call.volume r ∈ calls) := by
  obtain ⟨g, log, files, hr, rfl⟩ := made_spec h hm
  obtain ⟨h1, h2⟩ := render_check h (log.foldl Rep.add ({} : Rep M))
  refine ⟨h1, h2.trans ?_⟩
  rw [(Rep.fold_spec log {}).1]
  have hne : ∀ l : List (VolumeRun × VolumeInfo ℚ), l.getLast?.isSome ↔ l ≠ [] := by intro l; cases l <;> simp
  rw [Option.or_none, lastVolume, hne]
  clear h1 h2 hm
  generalize ({} : State (Elem ℚ)) = g0 at hr
  induction calls generalizing g0 g log with
  | nil => rw [resultsOf] at hr; cases hr; simp [volumesOf]
  | cons c calls ih =>
    cases c with
    | volume v =>
      rw [resultsOf] at hr
      obtain ⟨x, -, hx⟩ := Option.bind_eq_some_iff.1 hr
      obtain ⟨y, hy, he⟩ := Option.map_eq_some_iff.1 hx
      cases he
      simp [volumesOf]
    | condition v =>
      rw [resultsOf] at hr
      obtain ⟨x, hid, hx⟩ := Option.bind_eq_some_iff.1 hr
      obtain ⟨y, hy, he⟩ := Option.map_eq_some_iff.1 hx
      cases he
      simp only [volumesOf, List.filterMap_cons, List.mem_cons, reduceCtorEq, false_or]
      exact ih _ _ _ hy
    | write t =>
      rw [resultsOf] at hr
      obtain ⟨y, hy, he⟩ := Option.map_eq_some_iff.1 hr
      cases he
      have := ih _ _ _ hy
      simp only [List.mem_cons, reduceCtorEq, false_or]
      cases writes <;> exact this

/-- Writing the model always succeeds, also before a volume is computed.  It adds one file, which loads as JSON and holds the report
as it is afterwards. -/
theorem C102_file {ks : InfoKeys} (h : InfoKeysRegistered ks) {debug : Bool} {echo : Nat} {writes : Bool} {calls : List (Call M)}
    {m : Model M} (hm : Made ks debug echo writes calls m) (rnd : ℚ → ℚ) (t : ℚ) :
    ∃ m' file, step ks debug echo true (.write t) m = .ok m' ∧ m'.files = m.files ++ [file] ∧ m'.grid = m.grid ∧
      m'.conditions = m.conditions ∧ load rnd file = some (.obj (dictMembers rnd m'.info)) := by
  obtain ⟨g, log, files, hr, rfl⟩ := made_spec h hm
  obtain ⟨file, h1, h2⟩ := write_eq h rnd t ⟨g, _, render ks (log.foldl Rep.add ({} : Rep M)), files⟩ _ rfl
  exact ⟨_, file, h1, rfl, rfl, rfl, h2⟩

/-- The times in a report: total, volume, conditions, writing. -/
def TimesAre (m : Model M) (total volume conditions write : ℚ) : Prop :=
  valueAt [.sub "elapsed_time_info".toList] "total".toList m.info = some (.double total) ∧
  valueAt [.sub "elapsed_time_info".toList, .sub "volume_time_info".toList] "total".toList m.info = some (.double volume) ∧
  valueAt [.sub "elapsed_time_info".toList, .sub "conditions_time_info".toList] "total".toList m.info = some (.double conditions) ∧
  valueAt [.sub "elapsed_time_info".toList, .sub "write_files_time_info".toList] "total".toList m.info = some (.double write)

theorem times_of {ks : InfoKeys} (h : InfoKeysRegistered ks) (R : Rep M) (g : State (Elem ℚ)) (cs : List (Cond M)) (fs : List Text) :
    TimesAre ⟨g, cs, render ks R, fs⟩ R.total (match R.vol with | some x => x.1.total | none => 0) R.cond R.write := by
  refine ⟨?_, ?_, ?_, ?_⟩ <;> refine (render_lines h _ _ _ _).2 ?_
  · simp [Rep.lines, lineAt]
  · rw [Rep.lines]
    cases R.vol with
    | none => simp [volumeTimes, lineAt]
    | some x => simp [volumeTimes, lineAt]
  · simp [Rep.lines, lineAt]
  · simp [Rep.lines, lineAt]

/-- With at most one volume computation and at most one writing, the total time is the sum of the times for the volume, for the
conditions and for writing.  Missing: `C102_false_of_code`. -/
theorem C102_total_partial {ks : InfoKeys} (h : InfoKeysRegistered ks) {debug : Bool} {echo : Nat} {writes : Bool} {calls : List (Call M)}
    {m : Model M} (hm : Made ks debug echo writes calls m)
    (hv : (calls.filter Call.isVolume).length ≤ 1)
    (hw : (calls.filter Call.isWrite).length ≤ 1) :
    ∃ total volume conditions write, TimesAre m total volume conditions write ∧ total = volume + conditions + write := by
  obtain ⟨g, log, files, hr, rfl⟩ := made_spec h hm
  refine ⟨_, _, _, _, times_of h _ _ _ _, ?_⟩
  obtain ⟨h1, h2, h3, h4, h5⟩ := Rep.fold_spec log ({} : Rep M)
  rw [h1, h2, h3, h4]
  simp only [Option.or_none, zero_add]
  clear h1 h2 h3 h4 h5 hm
  -- the times of all volume computations and of all writings
  have key : ∀ (calls : List (Call M)) g0 g log, resultsOf debug writes calls g0 = some (g, log) →
      (log.map Done.time).sum = ((volumesOf log).map fun x : VolumeRun × VolumeInfo ℚ => x.1.total).sum +
        ((conditionsOf log).map fun c => c.1.time).sum + (writesOf log).sum ∧
      (volumesOf log).length ≤ (calls.filter Call.isVolume).length ∧
      (writesOf log).length ≤ (calls.filter Call.isWrite).length := by
    intro calls
    induction calls with
    | nil => intro g0 g log hr; rw [resultsOf] at hr; cases hr; simp [conditionsOf, volumesOf, writesOf]
    | cons c calls ih =>
      intro g0 g log hr
      cases c with
      | volume v =>
        rw [resultsOf] at hr
        obtain ⟨x, -, hx⟩ := Option.bind_eq_some_iff.1 hr
        obtain ⟨y, hy, he⟩ := Option.map_eq_some_iff.1 hx
        cases he
        obtain ⟨e1, e2, e3⟩ := ih _ _ _ hy
        refine ⟨?_, ?_, e3⟩
        · simp only [List.map_cons, List.sum_cons, List.filterMap_cons, e1, Done.time, conditionsOf, volumesOf, writesOf]; ring
        · simp only [volumesOf, List.filterMap_cons, List.filter_cons, Call.isVolume, List.length_cons, if_true]; exact Nat.succ_le_succ e2
      | condition v =>
        rw [resultsOf] at hr
        obtain ⟨x, hid, hx⟩ := Option.bind_eq_some_iff.1 hr
        obtain ⟨y, hy, he⟩ := Option.map_eq_some_iff.1 hx
        cases he
        obtain ⟨e1, e2, e3⟩ := ih _ _ _ hy
        refine ⟨?_, e2, e3⟩
        simp only [List.map_cons, List.sum_cons, List.filterMap_cons, e1, Done.time, conditionsOf, volumesOf, writesOf]; ring
      | write t =>
        rw [resultsOf] at hr
        obtain ⟨y, hy, he⟩ := Option.map_eq_some_iff.1 hr
        cases he
        obtain ⟨e1, e2, e3⟩ := ih _ _ _ hy
        cases writes with
        | false =>
          refine ⟨e1, e2, e3.trans ?_⟩
          simp only [List.filter_cons, Call.isWrite, if_true, List.length_cons]; omega
        | true =>
          refine ⟨?_, e2, ?_⟩
          · simp only [if_true, List.map_cons, List.sum_cons, List.filterMap_cons, e1, Done.time, conditionsOf, volumesOf, writesOf]; ring
          · simp only [if_true, writesOf, List.filterMap_cons, List.filter_cons, Call.isWrite, List.length_cons]; exact Nat.succ_le_succ e3
  obtain ⟨e1, e2, e3⟩ := key calls _ _ _ hr
  rw [e1, lastVolume]
  have e2' := e2.trans hv
  have e3' := e3.trans hw
  generalize (volumesOf log) = V at e2' ⊢
  generalize (writesOf log) = W at e3' ⊢
  have hV : (V.map fun x : VolumeRun × VolumeInfo ℚ => x.1.total).sum = match V.getLast? with | some x => x.1.total | none => 0 := by
    cases V with
    | nil => rfl
    | cons x l =>
      cases l with
      | nil => simp
      | cons y l => simp only [List.length_cons] at e2'; omega
  have hW : W.sum = W.getLastD 0 := by
    cases W with
    | nil => rfl
    | cons x l =>
      cases l with
      | nil => simp
      | cons y l => simp only [List.length_cons] at e3'; omega
  rw [hV, hW]

/-! ## Examples -/

def exampleInfoKeys : InfoKeys := ⟨keysOf Info.mainSubDecl, keysOf Info.mainListDecl, keysOf geometryDecl, keysOf quadratureDecl,
  keysOf Info.gridDecl, keysOf Info.conditionDecl, keysOf timeDecl, keysOf timeSubDecl, keysOf volumeTimeDecl, keysOf conditionsTimeDecl,
  keysOf writeTimeDecl⟩

theorem exampleInfoKeys_registered : InfoKeysRegistered exampleInfoKeys := by
  have key : ∀ decl : Decl, (decl.map (·.1)).Nodup →
      initMap (decl.map (·.1)) (decl.mapIdx fun i e => ⟨i, e.2.1, e.2.2⟩) = some (keysOf decl) → Registered decl (keysOf decl) := by
    intro decl h1 h2
    refine ⟨h1, _, ?_, h2⟩
    intro k hk
    obtain ⟨i, hi, rfl⟩ := List.mem_mapIdx.1 hk
    exact ⟨decl[i].1, by simp⟩
  constructor <;> exact key _ (by decide +kernel) (by decide +kernel)

/-- Condition settings with an id. -/
def exampleCondition : Dict ℚ := orDict (runEdits id [.set "condition_id".toList (.int 7 true)] newCondition)

theorem exampleCondition_made : IsCondition id exampleKeys exampleCondition :=
  ⟨newCondition, _, newCondition_eq, ok_orDict (by decide +kernel)⟩

/-- A volume computation on two threads. -/
def exampleVolume : VolumeRun := ⟨QuESo.Props.sampleInput, [3, 1, 0], true, 8, 1, 4, 2, 5, 2⟩

/-- A surface with area 5 in cells 0 and 2. -/
def exampleConditionRun : ConditionRun Nat :=
  ⟨exampleCondition, 5, fun i => if i = 0 then 2 else if i = 2 then 3 else 0, fun m => m, fun m => m, [2, 0, 1, 3], 3⟩

/-- A volume, two conditions and two writings. -/
def exampleRun : List (Call Nat) :=
  [.volume exampleVolume, .condition exampleConditionRun, .condition exampleConditionRun, .write 1, .write 2]

theorem exampleRun_conditions : ConditionsMade exampleRun := by
  intro r hr
  simp only [exampleRun, List.mem_cons, Call.condition.injEq, reduceCtorEq, List.not_mem_nil, or_false, false_or, or_self] at hr
  subst hr
  exact ⟨id, exampleKeys, exampleKeys_registered, exampleCondition_made⟩

/-- The calls succeed. -/
theorem exampleRun_made : ∃ m, Made exampleInfoKeys true 2 true exampleRun m := by
  obtain ⟨m, hm⟩ := (C102_runs exampleInfoKeys_registered true 2 true exampleRun_conditions).2.2 (by decide +kernel)
  exact ⟨m, exampleRun_conditions, hm⟩

/-- The full claim "the total time is the sum of the times for the volume, the conditions and writing" is false: the time for writing
is that of the last writing only, while the total time has all of them. -/
theorem C102_false_of_code : ∃ (calls : List (Call Nat)) (m : Model Nat) (total volume conditions write : ℚ),
    Made exampleInfoKeys true 2 true calls m ∧ TimesAre m total volume conditions write ∧ total ≠ volume + conditions + write := by
  obtain ⟨m, hm⟩ := exampleRun_made
  obtain ⟨g, log, files, hr, he⟩ := made_spec exampleInfoKeys_registered hm
  have ht := times_of exampleInfoKeys_registered (log.foldl Rep.add ({} : Rep Nat)) g
    ((conditionsOf log).mapIdx (fun i c => ⟨c.1.settings, i, c.2.2.1⟩)) files
  rw [← he] at ht
  refine ⟨exampleRun, m, _, _, _, _, hm, ht, ?_⟩
  · have : log = ((resultsOf true true exampleRun {}).map (·.2)).getD [] := by rw [hr]; rfl
    rw [this]
    decide +kernel

/-- Beside `C102_report`: some of the values after these calls. -/
example : ((resultsOf true true exampleRun {}).map fun x =>
    (((x.2.map Done.time).sum, lastWrite x.2, (conditionsOf x.2).map fun c => (c.2.1, c.2.2.2)) : ℚ × ℚ × List (Nat × ℚ))) =
    some (17, 2, [(7, 40), (7, 40)]) := by decide +kernel

end QuESo.Info
