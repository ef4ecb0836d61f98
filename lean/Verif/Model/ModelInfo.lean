import Verif.Model.SettingsFactory
import Verif.Model.EmbeddedModel

/-!
# Model of the report of a model (`ModelInfo`)

`queso/includes/dictionary_factory.hpp` (`CreateModelInfo`, `CreateConditionInfo`), and what `ComputeVolume`, `ComputeCondition`
and `WriteModelToFile` of `queso/embedded_model.cpp` write there.  What they compute is `Model/EmbeddedModel.lean`.  Measured
times are arguments.  A division by a volume or area of zero gives zero here (infinity or NaN in the program).
-/
namespace QuESo.Info
open QuESo.Settings QuESo.Json QuESo.Embedded QuESo.BGrid

/-- `MainInfo`, sub dictionaries, register_keys.hpp L144-155. -/
def mainSubDecl : List KeyDecl := [objectKey "embedded_geometry_info", objectKey "quadrature_info", objectKey "background_grid_info",
  objectKey "elapsed_time_info"]

/-- `MainInfo`, lists, register_keys.hpp L157-162. -/
def mainListDecl : List KeyDecl := [objectKey "conditions_infos_list"]

/-- `EmbeddedGeometryInfo`, register_keys.hpp L166-173. -/
def geometryDecl : List KeyDecl := [("is_closed".toList, .bool, true), ("volume".toList, .double, true)]

/-- `QuadratureInfo`, register_keys.hpp L177-190. -/
def quadratureDecl : List KeyDecl := [("represented_volume".toList, .double, true), ("percentage_of_geometry_volume".toList, .double, true),
  ("tot_num_points".toList, .index, true), ("num_of_points_per_full_element".toList, .double, true),
  ("num_of_points_per_trimmed_element".toList, .double, true)]

/-- `BackgroundGridInfo`, register_keys.hpp L194-205. -/
def gridDecl : List KeyDecl := [("num_active_elements".toList, .index, true), ("num_trimmed_elements".toList, .index, true),
  ("num_full_elements".toList, .index, true), ("num_inactive_elements".toList, .index, true)]

/-- `ConditionInfo`, register_keys.hpp L209-218. -/
def conditionDecl : List KeyDecl := [("condition_id".toList, .index, true), ("surf_area".toList, .double, true),
  ("perc_surf_area_in_active_domain".toList, .double, true)]

/-- `ElapsedTimeInfo`, values, register_keys.hpp L222-227. -/
def timeDecl : List KeyDecl := [("total".toList, .double, true)]

/-- `ElapsedTimeInfo`, sub dictionaries, register_keys.hpp L229-238. -/
def timeSubDecl : List KeyDecl := [objectKey "volume_time_info", objectKey "conditions_time_info", objectKey "write_files_time_info"]

/-- `VolumeTimeInfo`, register_keys.hpp L242-255. -/
def volumeTimeDecl : List KeyDecl := [("total".toList, .double, true), ("classification_of_elements".toList, .double, true),
  ("computation_of_intersections".toList, .double, true), ("solution_of_moment_fitting_eqs".toList, .double, true),
  ("construction_of_ggq_rules".toList, .double, true)]

/-- `ConditionsTimeInfo`, register_keys.hpp L259-264. -/
def conditionsTimeDecl : List KeyDecl := [("total".toList, .double, true)]

/-- `WriteFilesTimeInfo`, register_keys.hpp L268-273. -/
def writeTimeDecl : List KeyDecl := [("total".toList, .double, true)]

/-- The registered key sets for results. -/
structure InfoKeys where
  mainSub : KeySet
  mainList : KeySet
  geometry : KeySet
  quadrature : KeySet
  grid : KeySet
  condition : KeySet
  time : KeySet
  timeSub : KeySet
  volumeTime : KeySet
  conditionsTime : KeySet
  writeTime : KeySet

/-- The constructor with keys of sub dictionaries (dictionary.hpp L125-129), followed by `SetSubDictionary` of all of them
(L208-219). -/
def withSubs (ks : KeySet) (subs : List (Dict ℚ)) : Dict ℚ → Dict ℚ
  | .node data _ _ listKeys lists => .node data (some ks) (subs.map some) listKeys lists

/-- `CreateModelInfo`, dictionary_factory.hpp L111-200. -/
def createModelInfo (ks : InfoKeys) : Res (Dict ℚ) :=
  (valuesOnly ks.geometry []).bind fun geometry =>
  (valuesOnly ks.quadrature []).bind fun quadrature =>
  (valuesOnly ks.grid []).bind fun grid =>
  (valuesOnly ks.time [(0, .double 0)]).bind fun time =>
  (valuesOnly ks.volumeTime [(3, .double 0), (4, .double 0), (2, .double 0), (1, .double 0), (0, .double 0)]).bind fun volumeTime =>
  (valuesOnly ks.conditionsTime [(0, .double 0)]).bind fun conditionsTime =>
  (valuesOnly ks.writeTime [(0, .double 0)]).bind fun writeTime =>
  .ok (.node none (some ks.mainSub)
    [some geometry, some quadrature, some grid, some (withSubs ks.timeSub [volumeTime, conditionsTime, writeTime] time)]
    (some ks.mainList) [[]])

/-- `CreateConditionInfo`, dictionary_factory.hpp L204-214. -/
def createConditionInfo (ks : InfoKeys) : Res (Dict ℚ) := valuesOnly ks.condition []

/-! ## Access by keys (the numbers are the enumerators) -/

/-- `SetValue(key, value)`, dictionary.hpp L158-162. -/
def setAt (i : Nat) (v : Val ℚ) : Dict ℚ → Res (Dict ℚ)
  | .node (some ds) sk s lk l => (ds.setKey ⟨i, v.ty, true⟩ v).bind fun ds' => .ok (.node (some ds') sk s lk l)
  | .node none _ _ _ _ => .ub

/-- `GetRequiredValue(key)`, dictionary.hpp L171-175.  A value that is not set is an error: an exception with assertions; without
them the function must not throw and the program ends. -/
def getAt (i : Nat) (t : Ty) : Dict ℚ → Res (Val ℚ)
  | .node (some ds) _ _ _ _ => ds.getRequired ⟨i, t, true⟩
  | .node none _ _ _ _ => .ub

/-- A call on `dictionary[key]`, dictionary.hpp L226-253. -/
def onSubAt (i : Nat) (f : Dict ℚ → Res (Dict ℚ)) : Dict ℚ → Res (Dict ℚ)
  | .node data (some ks) subs lk l =>
    match subs[i]? with
    | some (some d) => (f d).bind fun d' => .ok (.node data (some ks) (subs.set i (some d')) lk l)
    | _ => .ub
  | .node _ none _ _ _ => .ub

/-- `dictionary[key]` for reading. -/
def subAt (i : Nat) : Dict ℚ → Res (Dict ℚ)
  | .node _ (some _) subs _ _ =>
    match subs[i]? with
    | some (some d) => .ok d
    | _ => .ub
  | .node _ none _ _ _ => .ub

/-- `GetList(key).push_back(dictionary)`, dictionary.hpp L282-286. -/
def pushAt (i : Nat) (c : Dict ℚ) : Dict ℚ → Res (Dict ℚ)
  | .node data sk subs (some ks) lists =>
    match lists[i]? with
    | some l => .ok (.node data sk subs (some ks) (lists.set i (l ++ [some c])))
    | none => .ub
  | .node _ _ _ none _ => .ub

/-- A call on entry `j` of `GetList(key)`. -/
def onEntryAt (i j : Nat) (f : Dict ℚ → Res (Dict ℚ)) : Dict ℚ → Res (Dict ℚ)
  | .node data sk subs (some ks) lists =>
    match lists[i]? with
    | some l =>
      match l[j]? with
      | some (some d) => (f d).bind fun d' => .ok (.node data sk subs (some ks) (lists.set i (l.set j (some d'))))
      | _ => .ub
    | none => .ub
  | .node _ _ _ none _ => .ub

/-- `GetList(key).size()`. -/
def sizeAt (i : Nat) : Dict ℚ → Res Nat
  | .node _ _ _ (some _) lists =>
    match lists[i]? with
    | some l => .ok l.length
    | none => .ub
  | .node _ _ _ none _ => .ub

/-- The number in a value of type `double`. -/
def asDouble : Val ℚ → Res ℚ
  | .double q => .ok q
  | _ => .error

/-- The number in a value of type `IndexType`. -/
def asNat : Val ℚ → Res Nat
  | .index n => .ok n
  | _ => .error

/-- `total = r_time.GetRequiredValue(total); r_time.SetValue(total, total + t)`, embedded_model.cpp L124-125, L276-277,
L281-282 and L328-329. -/
def addTime (t : ℚ) (d : Dict ℚ) : Res (Dict ℚ) :=
  (getAt 0 .double d).bind fun v => (asDouble v).bind fun total => setAt 0 (.double (total + t)) d

/-! ## The three calls -/

variable {M : Type _}

/-- A volume computation: what the geometry gives (`inp`, `isClosed`: `EstimateQuality < 1e-10`), the order of the parallel loop, the
times measured, and the number of threads. -/
structure VolumeRun where
  inp : VolumeInput ℚ
  order : List Nat
  isClosed : Bool
  total : ℚ
  classification : ℚ
  intersections : ℚ
  momentFitting : ℚ
  ggq : ℚ
  threads : Nat

/-- A condition: its settings, the area of the surface, the clipped surface of each cell, the order of the parallel loop, and the time
measured. -/
structure ConditionRun (M : Type _) where
  settings : Dict ℚ
  surfaceArea : ℚ
  clip : Nat → M
  numTri : M → Nat
  area : M → ℚ
  order : List Nat
  time : ℚ

/-- Calls on a model: `CreateVolume`, `CreateCondition`, `WriteModelToFile` with the time it takes. -/
inductive Call (M : Type _)
  | volume (r : VolumeRun)
  | condition (r : ConditionRun M)
  | write (time : ℚ)

/-- `Condition`, condition.hpp L29-102: references to its settings and to its info, and its segments.  The info is entry `info` of the
list in the model info: the entries are objects of their own that are never moved or removed. -/
structure Cond (M : Type _) where
  settings : Dict ℚ
  info : Nat
  segments : List (Segment M ℚ)

/-- `EmbeddedModel`, embedded_model.h L238-244: background grid with conditions (`GetConditions`), model info, and the versions of
`model_info.json` written so far. -/
structure Model (M : Type _) where
  grid : State (Elem ℚ)
  conditions : List (Cond M)
  info : Dict ℚ
  files : List Text

/-- The constructor, embedded_model.h L70-76. -/
def newModel (ks : InfoKeys) : Res (Model M) := (createModelInfo ks).bind fun info => .ok ⟨{}, [], info, []⟩

/-- First part of `ComputeVolume` that writes to the model info, embedded_model.cpp L32-38 and L54-55. -/
def infoBefore (r : VolumeRun) (info : Dict ℚ) : Res (Dict ℚ) :=
  (onSubAt 0 (setAt 1 (.double r.inp.volume)) info).bind fun info =>
  (onSubAt 0 (setAt 0 (.bool r.isClosed)) info).bind fun info =>
  onSubAt 3 (onSubAt 0 (setAt 1 (.double r.classification))) info

/-- `CheckRequired` on `info[key]`. -/
def checkAt (i : Nat) (d : Dict ℚ) : Res Unit := (subAt i d).bind Dict.checkRequired

/-- Second part, embedded_model.cpp L118-189. -/
def infoAfter (r : VolumeRun) (vi : VolumeInfo ℚ) (info : Dict ℚ) : Res (Dict ℚ) :=
  (onSubAt 3 (onSubAt 0 (setAt 0 (.double r.total))) info).bind fun info =>
  (checkAt 3 info).bind fun _ =>
  (onSubAt 3 (addTime r.total) info).bind fun info =>
  (onSubAt 3 (onSubAt 0 (setAt 2 (.double (r.intersections / r.threads)))) info).bind fun info =>
  (onSubAt 3 (onSubAt 0 (setAt 3 (.double (r.momentFitting / r.threads)))) info).bind fun info =>
  (onSubAt 3 (onSubAt 0 (setAt 4 (.double (if r.inp.usesGgq then r.ggq else 0)))) info).bind fun info =>
  (onSubAt 2 (setAt 0 (.index vi.numActive)) info).bind fun info =>
  (onSubAt 2 (setAt 1 (.index vi.numTrimmed)) info).bind fun info =>
  (onSubAt 2 (setAt 2 (.index vi.numFull)) info).bind fun info =>
  (onSubAt 2 (setAt 3 (.index vi.numInactive)) info).bind fun info =>
  (onSubAt 1 (setAt 2 (.index vi.totPoints)) info).bind fun info =>
  (onSubAt 1 (setAt 0 (.double vi.represented)) info).bind fun info =>
  (onSubAt 1 (setAt 1 (.double vi.percentage)) info).bind fun info =>
  (onSubAt 1 (setAt 3 (.double vi.pointsPerFull)) info).bind fun info =>
  onSubAt 1 (setAt 4 (.double vi.pointsPerTrimmed)) info

/-- `PrintVolumeInfo`, embedded_model.cpp L373-402: the checks and reads; what is printed is left out. -/
def printVolume (echo : Nat) (info : Dict ℚ) : Res Unit :=
  if echo > 0 then
    (checkAt 2 info).bind fun _ =>
    ((subAt 2 info).bind (getAt 0 .index)).bind fun _ =>
    ((subAt 2 info).bind (getAt 1 .index)).bind fun _ =>
    (checkAt 1 info).bind fun _ =>
    ((subAt 1 info).bind (getAt 2 .index)).bind fun _ =>
    if echo > 1 then ((subAt 1 info).bind (getAt 1 .double)).bind fun _ => .ok () else .ok ()
  else .ok ()

/-- `ComputeVolume`, embedded_model.cpp L27-195.  An error in the parallel loop (`computeVolume` is `none`) ends the program. -/
def volume (debug : Bool) (echo : Nat) (r : VolumeRun) (m : Model M) : Res (Model M) :=
  (infoBefore r m.info).bind fun info =>
  match computeVolume debug r.inp r.order m.grid with
  | none => .error
  | some (grid, vi) =>
    (infoAfter r vi info).bind fun info =>
    (printVolume echo info).bind fun _ => .ok { m with grid := grid, info := info }

/-- `PrintConditionInfo`, embedded_model.cpp L435-454. -/
def printCondition (echo : Nat) (info : Dict ℚ) (j : Nat) : Res Unit :=
  if echo > 0 then
    (onEntryAt 0 j (fun d =>
      d.checkRequired.bind fun _ => (getAt 0 .index d).bind fun _ =>
      if echo > 1 then (getAt 1 .double d).bind fun _ => (getAt 2 .double d).bind fun _ => .ok d else .ok d) info).bind fun _ => .ok ()
  else .ok ()

/-- `ComputeCondition`, embedded_model.cpp L197-288. -/
def condition (ks : InfoKeys) (echo : Nat) (r : ConditionRun M) (m : Model M) : Res (Model M) :=
  (createConditionInfo ks).bind fun c =>
  (getAt 0 .index r.settings).bind fun v => (asNat v).bind fun id =>
  (setAt 0 (.index id) c).bind fun c =>
  (setAt 1 (.double r.surfaceArea) c).bind fun c =>
  (pushAt 0 c m.info).bind fun info =>
  (sizeAt 0 info).bind fun n =>
  let res := computeCondition m.grid r.clip r.numTri r.area r.surfaceArea r.order
  let conditions := m.conditions ++ [⟨r.settings, n - 1, res.1⟩]
  (onEntryAt 0 (n - 1) (setAt 2 (.double res.2)) info).bind fun info =>
  (checkAt 3 info).bind fun _ =>
  (onSubAt 3 (addTime r.time) info).bind fun info =>
  ((subAt 3 info).bind (checkAt 1)).bind fun _ =>
  (onSubAt 3 (onSubAt 1 (addTime r.time)) info).bind fun info =>
  (printCondition echo info (n - 1)).bind fun _ => .ok { m with conditions := conditions, info := info }

/-- `WriteModelToFile`, embedded_model.cpp L290-343; `writes` is the setting `write_output_to_file`.  The other files are C84. -/
def write (writes : Bool) (t : ℚ) (m : Model M) : Res (Model M) :=
  if writes then
    (checkAt 3 m.info).bind fun _ =>
    (onSubAt 3 (addTime t) m.info).bind fun info =>
    (onSubAt 3 (onSubAt 2 (setAt 0 (.double t))) info).bind fun info =>
    (writeJSON info).bind fun file => .ok { m with info := info, files := m.files ++ [file] }
  else .ok m

/-- One call. -/
def step (ks : InfoKeys) (debug : Bool) (echo : Nat) (writes : Bool) : Call M → Model M → Res (Model M)
  | .volume r, m => volume debug echo r m
  | .condition r, m => condition ks echo r m
  | .write t, m => write writes t m

/-- A sequence of calls; it stops at the first that fails. -/
def run (ks : InfoKeys) (debug : Bool) (echo : Nat) (writes : Bool) : List (Call M) → Model M → Res (Model M)
  | [], m => .ok m
  | c :: l, m => (step ks debug echo writes c m).bind fun m' => run ks debug echo writes l m'

end QuESo.Info
