import Verif.Model.ModelInfo
import Verif.Spec.SettingsFactory

/-!
# Specification vocabulary for the report of a model
-/
namespace QuESo.Spec
open QuESo.Settings QuESo.Json QuESo.Embedded QuESo.BGrid QuESo.Info

/-- The key sets are those of the declarations in `register_keys.hpp`. -/
structure InfoKeysRegistered (ks : InfoKeys) : Prop where
  mainSub : Registered Info.mainSubDecl ks.mainSub
  mainList : Registered Info.mainListDecl ks.mainList
  geometry : Registered geometryDecl ks.geometry
  quadrature : Registered quadratureDecl ks.quadrature
  grid : Registered Info.gridDecl ks.grid
  condition : Registered Info.conditionDecl ks.condition
  time : Registered timeDecl ks.time
  timeSub : Registered timeSubDecl ks.timeSub
  volumeTime : Registered volumeTimeDecl ks.volumeTime
  conditionsTime : Registered conditionsTimeDecl ks.conditionsTime
  writeTime : Registered writeTimeDecl ks.writeTime

variable {M : Type _}

/-- What a call gave: the numbers of a volume computation; the id of a condition, its segments and the part of its area in active
elements; the time for writing. -/
inductive Done (M : Type _)
  | volume (r : VolumeRun) (vi : VolumeInfo ℚ)
  | condition (r : ConditionRun M) (id : Nat) (segments : List (Segment M ℚ)) (percentage : ℚ)
  | write (time : ℚ)

/-- The id in the settings of a condition. -/
def conditionId (settings : Dict ℚ) : Option Nat :=
  match valueOf "condition_id".toList settings with
  | some (.index n) => some n
  | _ => none

/-- What a sequence of calls gives on a grid: the grid afterwards and the results in order; `none` if a volume computation fails or a
condition has no id. -/
def resultsOf (debug writes : Bool) : List (Call M) → State (Elem ℚ) → Option (State (Elem ℚ) × List (Done M))
  | [], g => some (g, [])
  | .volume r :: l, g => (computeVolume debug r.inp r.order g).bind fun x =>
      (resultsOf debug writes l x.1).map fun y => (y.1, .volume r x.2 :: y.2)
  | .condition r :: l, g => (conditionId r.settings).bind fun id =>
      let res := computeCondition g r.clip r.numTri r.area r.surfaceArea r.order
      (resultsOf debug writes l g).map fun y => (y.1, .condition r id res.1 res.2 :: y.2)
  | .write t :: l, g => (resultsOf debug writes l g).map fun y => (y.1, if writes then .write t :: y.2 else y.2)

/-- The volume computations in order. -/
def volumesOf (log : List (Done M)) : List (VolumeRun × VolumeInfo ℚ) := log.filterMap fun | .volume r vi => some (r, vi) | _ => none

/-- The last volume computation. -/
def lastVolume (log : List (Done M)) : Option (VolumeRun × VolumeInfo ℚ) := (volumesOf log).getLast?

/-- The conditions in order: calls, ids, segments and percentages. -/
def conditionsOf (log : List (Done M)) : List (ConditionRun M × Nat × List (Segment M ℚ) × ℚ) :=
  log.filterMap fun | .condition r id s p => some (r, id, s, p) | _ => none

/-- The times for writing in order. -/
def writesOf (log : List (Done M)) : List ℚ := log.filterMap fun | .write t => some t | _ => none

/-- The time of the last writing, zero if nothing was written. -/
def lastWrite (log : List (Done M)) : ℚ := (writesOf log).getLastD 0

/-- The time a call took. -/
def Done.time : Done M → ℚ
  | .volume r _ => r.total
  | .condition r _ _ _ => r.time
  | .write t => t

/-- A line of the report: where, name and value. -/
abbrev Line := List Step × Name × Val ℚ

/-- A line in a section. -/
def lineAt (sections : List String) (name : String) (v : Val ℚ) : Line := (sections.map fun s => .sub s.toList, name.toList, v)

/-- The lines about the geometry, the elements and the points of a volume. -/
def volumeLines (r : VolumeRun) (vi : VolumeInfo ℚ) : List Line :=
  [lineAt ["embedded_geometry_info"] "is_closed" (.bool r.isClosed),
   lineAt ["embedded_geometry_info"] "volume" (.double r.inp.volume),
   lineAt ["quadrature_info"] "represented_volume" (.double vi.represented),
   lineAt ["quadrature_info"] "percentage_of_geometry_volume" (.double vi.percentage),
   lineAt ["quadrature_info"] "tot_num_points" (.index vi.totPoints),
   lineAt ["quadrature_info"] "num_of_points_per_full_element" (.double vi.pointsPerFull),
   lineAt ["quadrature_info"] "num_of_points_per_trimmed_element" (.double vi.pointsPerTrimmed),
   lineAt ["background_grid_info"] "num_active_elements" (.index vi.numActive),
   lineAt ["background_grid_info"] "num_trimmed_elements" (.index vi.numTrimmed),
   lineAt ["background_grid_info"] "num_full_elements" (.index vi.numFull),
   lineAt ["background_grid_info"] "num_inactive_elements" (.index vi.numInactive)]

/-- The lines about the times of a volume computation: total, classification, average time of a thread for intersections and for
moment fitting, generalised rules. -/
def volumeTimes (total classification intersections momentFitting ggq : ℚ) : List Line :=
  [lineAt ["elapsed_time_info", "volume_time_info"] "total" (.double total),
   lineAt ["elapsed_time_info", "volume_time_info"] "classification_of_elements" (.double classification),
   lineAt ["elapsed_time_info", "volume_time_info"] "computation_of_intersections" (.double intersections),
   lineAt ["elapsed_time_info", "volume_time_info"] "solution_of_moment_fitting_eqs" (.double momentFitting),
   lineAt ["elapsed_time_info", "volume_time_info"] "construction_of_ggq_rules" (.double ggq)]

/-- The lines about condition number `i`. -/
def conditionLines (i : Nat) (c : ConditionRun M × Nat × List (Segment M ℚ) × ℚ) : List Line :=
  [([.entry "conditions_infos_list".toList i], "condition_id".toList, .index c.2.1),
   ([.entry "conditions_infos_list".toList i], "surf_area".toList, .double c.1.surfaceArea),
   ([.entry "conditions_infos_list".toList i], "perc_surf_area_in_active_domain".toList, .double c.2.2.2)]

/-- All lines of the report after calls with these results. -/
def reportLines (log : List (Done M)) : List Line :=
  (match lastVolume log with
   | none => volumeTimes 0 0 0 0 0
   | some (r, vi) => volumeLines r vi ++ volumeTimes r.total r.classification (r.intersections / r.threads)
       (r.momentFitting / r.threads) (if r.inp.usesGgq then r.ggq else 0)) ++
  [lineAt ["elapsed_time_info"] "total" (.double (log.map Done.time).sum),
   lineAt ["elapsed_time_info", "conditions_time_info"] "total" (.double ((conditionsOf log).map fun c => c.1.time).sum),
   lineAt ["elapsed_time_info", "write_files_time_info"] "total" (.double (lastWrite log))] ++
  ((conditionsOf log).mapIdx conditionLines).flatten

/-- Kinds of calls. -/
def _root_.QuESo.Info.Call.isVolume : Call M → Bool
  | .volume _ => true
  | _ => false

def _root_.QuESo.Info.Call.isCondition : Call M → Bool
  | .condition _ => true
  | _ => false

def _root_.QuESo.Info.Call.isWrite : Call M → Bool
  | .write _ => true
  | _ => false

/-- Condition settings of calls are made by the library and then changed by any calls. -/
def ConditionsMade (calls : List (Call M)) : Prop :=
  ∀ r, Call.condition r ∈ calls → ∃ rnd ks, KeysRegistered ks ∧ IsCondition rnd ks r.settings

/-- The type declared for a key. -/
def declaredOf (nm : Name) : Dict ℚ → Option Ty
  | .node (some d) _ _ _ _ => (d.keys.getKey nm).map fun k => k.ty
  | .node none _ _ _ _ => none

/-- The type declared for the key at the end of a path. -/
def declaredAt : List Step → Name → Dict ℚ → Option Ty
  | [], nm, d => declaredOf nm d
  | s :: p, nm, d => (child s d).bind (declaredAt p nm)

end QuESo.Spec
