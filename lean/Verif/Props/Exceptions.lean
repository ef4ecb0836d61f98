import Verif.Model.Exceptions
import Verif.Props.ClipPartition
import Verif.Props.EmbeddedModel

/-!
# C110: errors reach the caller as exceptions
-/
namespace QuESo.Exc
open QuESo.Embedded QuESo.BGrid QuESo.BRep QuESo.Spec QuESo.IO QuESo.GQ QuESo.Clip
open QuESo.AABBTree (Node)
variable {K : Type} [Field K] [LinearOrder K] [IsStrictOrderedRing K]

/-- A surface that can be clipped: the operator of a valid mesh that is not empty. -/
def ProperSurface (g : Query K) : Prop :=
  ∃ (node : Node K) (maxd : K) (m : Mesh K) (closed : Bool), m.check = true ∧ m.triangles ≠ [] ∧ m.triangles.length ≤ 2 ^ 30 ∧ Query.new node maxd m closed = .ok g

/-- The cells are larger than the tolerance. -/
def ProperGrid (e : Env K) : Prop := 0 < e.zt ∧ ∀ d < 3, 0 < e.n.get d ∧ 2 * e.zt * (e.n.get d : K) ≤ e.dom.upper.get d - e.dom.lower.get d

theorem clip_ok {e : Env K} (he : ProperGrid e) {g : Query K} (hg : ProperSurface g) (i : Nat) :
    ∃ c, clipTriangleMeshUnique e.zt g (Grid.boxXYZ e.n e.dom i).lower (Grid.boxXYZ e.n e.dom i).upper = .ok c := by
  obtain ⟨hz, hw⟩ := he
  obtain ⟨node, maxd, m, closed, hm, hne, hn, e1⟩ := hg
  have hord : ∀ d < 3, e.dom.lower.get d ≤ e.dom.upper.get d := fun d hd => by
    have := (hw d hd).2
    have h0 : 0 ≤ 2 * e.zt * (e.n.get d : K) := by positivity
    linarith
  have hstep : ∀ d < 3, 2 * e.zt ≤ (e.dom.upper.get d - e.dom.lower.get d) / (e.n.get d : K) := fun d hd => by
    obtain ⟨h1, h2⟩ := hw d hd
    have h3 : (0 : K) < e.n.get d := by exact_mod_cast h1
    rw [le_div_iff₀ h3]; exact h2
  obtain ⟨b1, b2⟩ := box_corners e.n e.dom hord i
  rw [b1, b2]
  have s0 := hstep 0 (by norm_num)
  have s1 := hstep 1 (by norm_num)
  have s2 := hstep 2 (by norm_num)
  obtain ⟨out, ids, h1, -⟩ := unique_pieces node maxd e.zt hz hm hne hn closed e1 (lowerCorner (gridPlanes e.n e.dom) (Grid.toMat e.n i))
    (upperCorner (gridPlanes e.n e.dom) (Grid.toMat e.n i)) _ _ rfl rfl
    (by simp only [lowerCorner, upperCorner, gridPlanes, Nat.cast_add, Nat.cast_one]; linarith)
    (by simp only [lowerCorner, upperCorner, gridPlanes, Nat.cast_add, Nat.cast_one]; linarith)
    (by simp only [lowerCorner, upperCorner, gridPlanes, Nat.cast_add, Nat.cast_one]; linarith)
  exact ⟨out, h1⟩

theorem condition_ok {e : Env K} (he : ProperGrid e) {g : Query K} (hg : ProperSurface g) (s : State (Elem K)) (hs : e.debug = true → s.locked = true) (order : List Nat) :
    conditionEnds e s g order = .returns () := by
  induction order with
  | nil => rfl
  | cons i order ih =>
    obtain ⟨c, hc⟩ := clip_ok he hg i
    unfold conditionEnds
    rw [hc]
    simp only
    rw [if_neg, ih]
    rintro ⟨-, h1, h2⟩
    rw [hs h1] at h2
    cases h2

theorem run_append (e : Env K) (l l' : List (Call K)) (s : State (Elem K)) :
    run e (l ++ l') s = match run e l s with | .returns s' => run e l' s' | .raises => .raises | .terminates => .terminates | .undefined => .undefined := by
  induction l generalizing s with
  | nil => rfl
  | cons c l ih =>
    simp only [List.cons_append, run]
    cases c.ends e s with
    | returns s' => exact ih s'
    | _ => rfl

theorem run_conds {e : Env K} (he : ProperGrid e) (s : State (Elem K)) (hs : e.debug = true → s.locked = true) (conds : List (Cond K)) (hc : ∀ c ∈ conds, ProperSurface c.g) :
    run e (conds.flatMap fun c => [.read c.good, .condition c.g c.order]) s = if ∀ c ∈ conds, c.good = true then .returns s else .raises := by
  induction conds with
  | nil => simp [run]
  | cons c conds ih =>
    rw [List.flatMap_cons, run_append]
    have ih' := ih fun c' h => hc c' (by simp [h])
    by_cases hg : c.good = true
    · have : run e [.read c.good, .condition c.g c.order] s = .returns s := by
        simp [run, Call.ends, hg, condition_ok he (hc c (by simp)) s hs]
      rw [this]
      simp only
      rw [ih']
      simp [hg]
    · have : run e [.read c.good, .condition c.g c.order] s = .raises := by simp [run, Call.ends, hg]
      rw [this]
      simp [hg]

/-- **C110**, part: creating everything from the settings, once on a new model, in builds with and without assertions and under every schedule: if all files can be read and written the
call returns, and otherwise an exception reaches the caller.  The process is never terminated. -/
theorem C110_create_partial (e : Env K) (he : ProperGrid e) (good : Bool) (inp : VolumeInput K) (order : List Nat) (hp : order.Perm (scheduled inp)) (conds : List (Cond K))
    (hc : ∀ c ∈ conds, ProperSurface c.g) (writes : Bool) :
    if good = true ∧ (∀ c ∈ conds, c.good = true) ∧ writes = true then ∃ s, run e (createAll good inp order conds writes) {} = .returns s
    else run e (createAll good inp order conds writes) {} = .raises := by
  obtain ⟨s1, s, h1, -, -, h4⟩ := volume_result e.debug inp order (hp.nodup_iff.mpr (scheduled_nodup inp))
  have key : run e (createAll good inp order conds writes) {} =
      if good = true ∧ (∀ c ∈ conds, c.good = true) ∧ writes = true then .returns s else .raises := by
    unfold createAll
    rw [List.cons_append, List.cons_append]
    by_cases hg : good = true
    · simp only [run, Call.ends, hg, if_true, h1, true_and]
      rw [run_append, run_conds he s (fun _ => h4) conds hc]
      by_cases hcs : ∀ c ∈ conds, c.good = true
      · rw [if_pos hcs]
        cases writes <;> simp [run, Call.ends]
        exact hcs
      · rw [if_neg hcs, if_neg fun h => hcs h.1]
    · simp [run, Call.ends, hg]
  rw [key]
  split
  · exact ⟨s, rfl⟩
  · rfl

/-- **C110**, part: in a release build conditions may also be created before the volume. -/
theorem C110_order_partial (e : Env K) (he : ProperGrid e) (hd : e.debug = false) (inp : VolumeInput K) (order : List Nat) (hp : order.Perm (scheduled inp))
    (before after : List (Cond K)) (hb : ∀ c ∈ before, ProperSurface c.g) (ha : ∀ c ∈ after, ProperSurface c.g) :
    ∃ s, run e (before.map (fun c => .condition c.g c.order) ++ .volume inp order :: after.map fun c => .condition c.g c.order) {} = .returns s := by
  obtain ⟨s1, s, h1, -, -, h4⟩ := volume_result e.debug inp order (hp.nodup_iff.mpr (scheduled_nodup inp))
  have hcs : ∀ (l : List (Cond K)) (s : State (Elem K)), (∀ c ∈ l, ProperSurface c.g) → run e (l.map fun c => .condition c.g c.order) s = .returns s := by
    intro l s hl
    induction l with
    | nil => rfl
    | cons c l ih =>
      simp only [List.map_cons, run, Call.ends, condition_ok he (hl c (by simp)) s (by rw [hd]; simp)]
      exact ih fun c' h => hl c' (by simp [h])
  refine ⟨s, ?_⟩
  rw [run_append, hcs before _ hb]
  simp only [run, Call.ends, h1]
  exact hcs after s ha

/-- **C110** is false of the code: creating the volume a second time does not raise an exception.  It terminates the process, in builds with assertions as soon as there is an active
cell, and in release builds as soon as a cell gets an element both times. -/
theorem C110_twice_false_of_code (e : Env K) (inp inp' : VolumeInput K) (order order' : List Nat) (hp : order.Perm (scheduled inp)) (hp' : order'.Perm (scheduled inp'))
    (h : e.debug = true ∧ scheduled inp' ≠ [] ∨ e.debug = false ∧ inp.classes.length < 2 ^ 31 ∧ inp'.classes.length < 2 ^ 31 ∧
      ∃ i, (wantedElement inp i).isSome ∧ (wantedElement inp' i).isSome) :
    run e [.volume inp order, .volume inp' order'] {} = .terminates := by
  obtain ⟨s1, s, h1, -, -, h4⟩ := volume_result e.debug inp order (hp.nodup_iff.mpr (scheduled_nodup inp))
  have h2 : computeVolume e.debug inp' order' s = none := by
    rcases h with ⟨hd, hne⟩ | ⟨hd, hN, hN', i, hi, hi'⟩
    · rw [hd] at h1 ⊢
      exact Props.C70_locked inp inp' order order' hp s _ h1 fun h0 => hne (by rw [h0] at hp'; exact hp'.symm.eq_nil)
    · rw [hd] at h1 ⊢
      exact Props.C70_release inp inp' order order' hN hN' hp hp' s _ h1 i hi hi'
  simp only [run, Call.ends, h1, h2]

/-- **C110** is false of the code: in a build with assertions, creating a condition before the volume terminates the process as soon as the surface meets one of the cells. -/
theorem C110_order_false_of_code (e : Env K) (he : ProperGrid e) (hd : e.debug = true) (g : Query K) (hg : ProperSurface g) (order : List Nat)
    (h : ∃ i ∈ order, ∀ c, clipTriangleMeshUnique e.zt g (Grid.boxXYZ e.n e.dom i).lower (Grid.boxXYZ e.n e.dom i).upper = .ok c → c.mesh.triangles ≠ []) :
    run e [.condition g order] {} = .terminates := by
  have : conditionEnds e {} g order = .terminates := by
    induction order with
    | nil => obtain ⟨i, hi, -⟩ := h; simp at hi
    | cons j order ih =>
      obtain ⟨c, hc⟩ := clip_ok he hg j
      unfold conditionEnds
      rw [hc]
      simp only
      split
      · rfl
      · rename_i hn
        refine ih ?_
        obtain ⟨i, hi, hcl⟩ := h
        rcases List.mem_cons.mp hi with rfl | hi
        · refine absurd ⟨List.length_pos_iff.mpr (hcl c hc), hd, rfl⟩ hn
        · exact ⟨i, hi, hcl⟩
  simp only [run, Call.ends, this]

/-! ## Examples -/

/-- A grid of 2 x 2 x 1 cells; a triangle with parts in three of them. -/
def exEnv (debug : Bool) : Env ℚ := ⟨debug, 1 / 1000, ⟨2, 2, 1⟩, ⟨⟨0, 0, 0⟩, ⟨2, 2, 1⟩⟩⟩
def exMesh : Mesh ℚ := ⟨[⟨1 / 2, 1 / 2, 1 / 2⟩, ⟨7 / 4, 1 / 2, 1 / 2⟩, ⟨1 / 2, 7 / 4, 1 / 2⟩], [⟨0, 1, 2⟩], [⟨0, 0, 1⟩]⟩

/-- A volume in which the cells 0 and 3 are inside. -/
def exVolume : VolumeInput ℚ := { (Props.allInside 4 ⟨⟨⟨0, 0, 0⟩, ⟨1, 1, 1⟩⟩, ⟨⟨0, 0, 0⟩, ⟨1, 1, 1⟩⟩⟩ 2 : VolumeInput ℚ) with classes := [.inside, .outside, .outside, .inside] }

/-- How a program with the surface of the example ends. -/
def exEnds (debug : Bool) (p : Query ℚ → List (Call ℚ)) : Option String :=
  match Query.new (K := ℚ) ⟨⟨⟨0, 0, 0⟩, ⟨0, 0, 0⟩⟩, 7, 7, 7, 7, 7, 7⟩ (10 ^ 300) exMesh false with
  | .error _ => none
  | .ok g => some (match run (exEnv debug) (p g) {} with | .returns _ => "returns" | .raises => "raises" | .terminates => "terminates" | .undefined => "undefined")

example (debug : Bool) : ProperGrid (exEnv debug) := by
  refine ⟨by norm_num [exEnv], fun d hd => ?_⟩
  interval_cases d <;> norm_num [exEnv, V3.get]

example (g : Query ℚ) (h : Query.new (K := ℚ) ⟨⟨⟨0, 0, 0⟩, ⟨0, 0, 0⟩⟩, 7, 7, 7, 7, 7, 7⟩ (10 ^ 300) exMesh false = .ok g) : ProperSurface g :=
  ⟨_, _, exMesh, false, by decide +kernel, by simp [exMesh], by simp [exMesh], h⟩

/-- Everything once: the call returns, or raises an exception if the file of the condition cannot be read. -/
example : exEnds true (fun g => createAll true exVolume [3, 0] [⟨true, g, [2, 1, 0, 3]⟩] true) = some "returns" ∧
    exEnds true (fun g => createAll true exVolume [3, 0] [⟨false, g, [2, 1, 0, 3]⟩] true) = some "raises" := by decide +kernel

/-- The volume twice, and in a build with assertions the condition first: the process is terminated. -/
example : exEnds true (fun _ => [.volume exVolume [3, 0], .volume exVolume [0, 3]]) = some "terminates" ∧
    exEnds false (fun _ => [.volume exVolume [3, 0], .volume exVolume [0, 3]]) = some "terminates" ∧
    exEnds true (fun g => [.condition g [3, 0, 1, 2], .volume exVolume [3, 0]]) = some "terminates" ∧
    exEnds false (fun g => [.condition g [3, 0, 1, 2], .volume exVolume [3, 0]]) = some "returns" := by decide +kernel

end QuESo.Exc
