import Verif.Proofs.EmbeddedModel
import Mathlib.Tactic.NormNum
import Mathlib.Tactic.FieldSimp
import Mathlib.Algebra.Order.Ring.Rat

/-!
# Properties C49, C68 – C70: the volume and condition computation of the embedded model

`computeVolume debug inp order s`: `order` is the order in which the iterations of the parallel loop are
executed, an arbitrary arrangement of the indices it runs over.
-/
namespace QuESo.Props
open QuESo.BGrid QuESo.Mapping QuESo.Spec QuESo.Embedded
variable {K : Type _} [Field K] [LinearOrder K]

/-! ## C49 Reported counts and condition segments -/

/-- Under every schedule, for every classification and every outcome of element construction (also for
grids too large for the loop counter): the computation succeeds, and the reported numbers satisfy
active = trimmed + full and active + inactive = number of cells; they are the numbers of stored elements. -/
theorem C49_counts (debug : Bool) (inp : VolumeInput K) (hN : inp.classes.length < 2 ^ 64) (order : List Nat)
    (hp : order.Perm (scheduled inp)) :
    ∃ s info, computeVolume debug inp order {} = some (s, info) ∧
      info.numActive = info.numTrimmed + info.numFull ∧
      info.numActive + info.numInactive = inp.classes.length ∧
      info.numActive = (s.views .all).length ∧ info.numTrimmed = (s.views .trimmed).length ∧
      info.numFull = (s.views .untrimmed).length := by
  obtain ⟨s1, s, h1, _, h3, _⟩ := volume_result debug inp order (hp.nodup_iff.mpr (scheduled_nodup inp))
  have ha := inv_numActive h3
  have hu : s.numActive = s.numUntrimmed + s.numTrimmed := rfl
  have hle : s.numActive ≤ inp.classes.length := by
    rw [ha, List.length_map]
    calc _ ≤ order.length := List.length_filterMap_le ..
      _ = (scheduled inp).length := hp.length_eq
      _ ≤ (activeIndices inp).length := (List.take_sublist _ _).length_le
      _ ≤ _ := by
        unfold activeIndices
        exact (List.length_filter_le _ _).trans (by simp)
  have hf : wsub s.numActive s.numTrimmed = s.numUntrimmed := by
    rw [wsub_eq (by omega) (by omega)]; omega
  have hi : wsub inp.classes.length s.numActive = inp.classes.length - s.numActive := wsub_eq hle hN
  refine ⟨s, _, h1, ?_, ?_, ?_, ?_, ?_⟩
  · show s.numActive = s.numTrimmed + wsub s.numActive s.numTrimmed
    rw [hf]; omega
  · show s.numActive + wsub inp.classes.length s.numActive = _
    rw [hi]; omega
  · show s.numActive = _
    simp [State.views, State.numActive]
  · show s.numTrimmed = _
    simp [State.views, State.numTrimmed]
  · show wsub s.numActive s.numTrimmed = _
    rw [hf]; simp [State.views, State.numUntrimmed]

/-- Under every schedule: every segment of a condition belongs to its own cell of the grid, carries the
non-empty part of the surface in this cell and the element stored for the cell (if there is one); every
cell with a non-empty part of the surface has a segment; the reported percentage is the area in cells with
an element. -/
theorem C49_condition {M : Type _} (s : State (Elem K)) (clip : Nat → M) (numTri : M → Nat) (area : M → K)
    (surfaceArea : K) (N : Nat) (hN : N < 2 ^ 31) (order : List Nat)
    (hp : order.Perm (List.range (tripCount N))) :
    let r := computeCondition s clip numTri area surfaceArea order
    (r.1.map (·.cell)).Nodup ∧
    (∀ g ∈ r.1, g.cell < N ∧ g.mesh = clip g.cell ∧ 0 < numTri g.mesh ∧
      ∀ k id e, g.parent = some (k, id, e) ↔ s.getElement .all (g.cell + 1) = .elem k id e) ∧
    (∀ i < N, 0 < numTri (clip i) → ∃ g ∈ r.1, g.cell = i) ∧
    r.2 = ((List.range N).map fun i =>
      if 0 < numTri (clip i) ∧ (s.getElement .all (i + 1)).present then area (clip i) else 0).sum
        / surfaceArea * 100 := by
  have ht : tripCount N = N := by
    unfold tripCount
    have : N % 2 ^ 32 = N := Nat.mod_eq_of_lt (by omega)
    simp only [this]; split <;> omega
  rw [ht] at hp
  simp only [computeCondition, condFold_eq, List.nil_append, zero_add]
  have hseg : ∀ {i g}, segmentOf s clip numTri i = some g →
      g.cell = i ∧ g.mesh = clip i ∧ 0 < numTri (clip i) ∧ g.parent = found (s.getElement .all (i + 1)) := by
    intro i g h
    unfold segmentOf at h
    split at h
    · rename_i hn
      simp only [Option.some.injEq] at h
      subst h; exact ⟨rfl, rfl, hn, rfl⟩
    · cases h
  refine ⟨?_, ?_, ?_, ?_⟩
  · have hnd : order.Nodup := hp.nodup_iff.mpr List.nodup_range
    have : (order.filterMap (segmentOf s clip numTri)).map (·.cell) =
        order.filter (fun i => decide (numTri (clip i) > 0)) := by
      clear hp hnd
      induction order with
      | nil => rfl
      | cons i l ih =>
        rw [List.filterMap_cons, List.filter_cons]
        by_cases h : numTri (clip i) > 0 <;> simp [segmentOf, h] at ih ⊢ <;> exact ih
    rw [this]
    exact hnd.filter _
  · intro g hg
    obtain ⟨i, hi, hgi⟩ := List.mem_filterMap.mp hg
    obtain ⟨h1, h2, h3, h4⟩ := hseg hgi
    have hiN := List.mem_range.mp (hp.mem_iff.mp hi)
    refine ⟨by omega, by rw [h1, h2], by rw [h2]; exact h3, ?_⟩
    intro k id e
    rw [h4, h1]
    unfold found
    cases s.getElement .all (i + 1) <;> simp
  · intro i hi hn
    refine ⟨⟨i, clip i, found (s.getElement .all (i + 1))⟩, ?_, rfl⟩
    refine List.mem_filterMap.mpr ⟨i, hp.mem_iff.mpr (List.mem_range.mpr hi), ?_⟩
    simp [segmentOf, hn]
  · congr 2
    exact (hp.map _).sum_eq

/-! ## C68 The volume computation creates exactly the elements the classification asks for -/

/-- Under every schedule, on every grid with fewer than 2^31 cells: looking up the id of a cell gives the
element the classification asks for, no other id has an element, and the reported numbers are the numbers
of such cells.  Missing from the full property: grids with 2^31 or more cells, where it is false. -/
theorem C68_elements_partial (debug : Bool) (inp : VolumeInput K) (hN : inp.classes.length < 2 ^ 31)
    (order : List Nat) (hp : order.Perm (scheduled inp)) :
    ∃ s info, computeVolume debug inp order {} = some (s, info) ∧
      (∀ i, s.getElement .all (i + 1) = match wantedElement inp i with
        | some (k, e) => .elem k (i + 1) e
        | none => .nothing) ∧
      s.getElement .all 0 = .nothing ∧
      info.numFull = inp.classes.count .inside ∧
      info.numTrimmed = ((List.range inp.classes.length).filter fun i =>
        inp.classes[i]? == some .trimmed && (inp.trimmedPts i).any (fun ps => !ps.isEmpty)).length := by
  obtain ⟨s1, s, h1, h2, h3, _⟩ := volume_result debug inp order (hp.nodup_iff.mpr (scheduled_nodup inp))
  rw [scheduled_small hN] at hp
  have hlog := final_log hp h2
  have hu : s.numActive = s.numUntrimmed + s.numTrimmed := rfl
  have hlook : ∀ id, s.getElement .all id =
      match ((List.range inp.classes.length).filterMap (wantedEntry inp)).find? (fun e => e.2.1 == id) with
      | some (k, i, a) => .elem k i a
      | none => .nothing := by
    intro id
    rw [getElement_of_inv h3]
    set L := (List.filterMap (entryOf inp) order).map (post inp s1)
    set R := (List.range inp.classes.length).filterMap (wantedEntry inp)
    have hnR : (R.map (·.2.1)).Nodup := (hlog.map (·.2.1)).nodup_iff.mp h3.nodup
    have : L.find? (fun e => e.2.1 == id) = R.find? (fun e => e.2.1 == id) := by
      cases hf : L.find? (fun e => e.2.1 == id) with
      | none =>
        symm
        rw [List.find?_eq_none] at hf ⊢
        exact fun x hx => hf x (hlog.mem_iff.mpr hx)
      | some x =>
        obtain ⟨k, j, a⟩ := x
        have hj : j = id := by simpa using List.find?_some hf
        subst hj
        exact (find_of_nodup hnR (hlog.mem_iff.mp (List.mem_of_find?_eq_some hf))).symm
    rw [this]
    cases R.find? (fun e => e.2.1 == id) with
    | none => rfl
    | some x => simp [accepts]
  have hnR : (((List.range inp.classes.length).filterMap (wantedEntry inp)).map (·.2.1)).Nodup :=
    (hlog.map (·.2.1)).nodup_iff.mp h3.nodup
  have hid : ∀ {i x}, wantedEntry inp i = some x → x.2.1 = i + 1 := by
    intro i x hx
    unfold wantedEntry at hx
    cases hw : wantedElement inp i with
    | none => simp [hw] at hx
    | some y => simp [hw] at hx; rw [← hx]
  have htr : s.numTrimmed = ((List.range inp.classes.length).filter fun i =>
        inp.classes[i]? == some .trimmed && (inp.trimmedPts i).any (fun ps => !ps.isEmpty)).length := by
    rw [inv_numTrimmed h3, (hlog.filter _).length_eq, length_filter_filterMap]
    congr 2
    funext i
    unfold wantedEntry wantedElement
    cases inp.classes[i]? with
    | none => simp
    | some c =>
      cases c <;> cases inp.trimmedPts i with
      | none => simp [isKind]
      | some ps => cases ps <;> simp [isKind]
  have hun : s.numUntrimmed = inp.classes.count .inside := by
    rw [inv_numUntrimmed h3, (hlog.filter _).length_eq, length_filter_filterMap, count_eq_range]
    congr 2
    funext i
    unfold wantedEntry wantedElement
    cases inp.classes[i]? with
    | none => simp
    | some c =>
      cases c <;> cases inp.trimmedPts i with
      | none => simp [isKind]
      | some ps => cases ps <;> simp [isKind]
  refine ⟨s, _, h1, ?_, ?_, ?_, htr⟩
  · intro i
    rw [hlook]
    cases hw : wantedElement inp i with
    | none =>
      have : ((List.range inp.classes.length).filterMap (wantedEntry inp)).find? (fun e => e.2.1 == i + 1) = none := by
        rw [List.find?_eq_none]
        intro x hx
        obtain ⟨j, _, hj⟩ := List.mem_filterMap.mp hx
        have := hid hj
        intro hxi
        simp only [beq_iff_eq] at hxi
        have hji : j = i := by omega
        subst hji
        simp [wantedEntry, hw] at hj
      rw [this]
    | some y =>
      obtain ⟨k, e⟩ := y
      have hmem : (k, i + 1, e) ∈ (List.range inp.classes.length).filterMap (wantedEntry inp) := by
        refine List.mem_filterMap.mpr ⟨i, List.mem_range.mpr ?_, by simp [wantedEntry, hw]⟩
        by_contra hge
        have hn : inp.classes[i]? = none := List.getElem?_eq_none (by omega)
        simp [wantedElement, hn] at hw
      rw [find_of_nodup hnR hmem]
  · rw [hlook]
    have : ((List.range inp.classes.length).filterMap (wantedEntry inp)).find? (fun e => e.2.1 == 0) = none := by
      rw [List.find?_eq_none]
      intro x hx
      obtain ⟨j, _, hj⟩ := List.mem_filterMap.mp hx
      have := hid hj
      simp; omega
    rw [this]
  · show wsub s.numActive s.numTrimmed = _
    have hle : s.numActive ≤ inp.classes.length := by
      rw [inv_numActive h3, hlog.length_eq]
      exact (List.length_filterMap_le ..).trans (by simp)
    rw [wsub_eq (by omega) (by omega)]
    omega

/-- A grid whose `n` cells are all inside the body, with one integration point per cell. -/
def allInside (n : Nat) (b : Bounds K) (v : K) : VolumeInput K :=
  ⟨List.replicate n .inside, fun _ => b, fun _ => none, false, fun _ => [⟨b.parametric.lower, 1⟩], fun _ _ => [], v⟩

theorem allInside_result (debug : Bool) (n : Nat) (hn : tripCount n = 0) (b : Bounds K) (v : K) :
    (allInside n b v).classes.count .inside = n ∧ (∀ i < n, (wantedElement (allInside n b v) i).isSome) ∧
    ∀ order, order.Perm (scheduled (allInside n b v)) →
      ∃ s info, computeVolume debug (allInside n b v) order {} = some (s, info) ∧
        s.views .all = [] ∧ info.numActive = 0 := by
  have hcl : ∀ i < n, (allInside n b v).classes[i]? = some .inside := by
    intro i hi
    show (List.replicate n IState.inside)[i]? = _
    rw [List.getElem?_replicate, if_pos hi]
  refine ⟨List.count_replicate_self, ?_, ?_⟩
  · intro i hi
    simp [wantedElement, hcl i hi]
  · intro order hp
    have hlen : (activeIndices (allInside n b v)).length = n := by
      have hl : (allInside n b v).classes.length = n := List.length_replicate
      have : activeIndices (allInside n b v) = List.range n := by
        unfold activeIndices
        rw [hl, List.filter_eq_self]
        intro i hi
        simp [hcl i (List.mem_range.mp hi)]
      rw [this, List.length_range]
    have hs : scheduled (allInside n b v) = [] := by
      unfold scheduled
      rw [hlen, hn]; rfl
    rw [hs, List.perm_nil] at hp
    subst hp
    cases debug <;> exact ⟨_, _, rfl, rfl, rfl⟩

/-- The loop over the active cells uses a 32 bit counter: on a grid with 2^31 cells inside the body no
element is created at all, and 0 active elements are reported. -/
theorem C68_false_of_code (debug : Bool) (b : Bounds K) (v : K) :
    (allInside (2 ^ 31) b v).classes.count .inside = 2 ^ 31 ∧
    (∀ i < 2 ^ 31, (wantedElement (allInside (2 ^ 31) b v) i).isSome) ∧
    ∀ order, order.Perm (scheduled (allInside (2 ^ 31) b v)) →
      ∃ s info, computeVolume debug (allInside (2 ^ 31) b v) order {} = some (s, info) ∧
        s.views .all = [] ∧ info.numActive = 0 := by
  have h : tripCount (2 ^ 31) = 0 := by unfold tripCount; norm_num
  generalize 2 ^ 31 = n at h ⊢
  exact allInside_result debug n h b v

/-! ## C69 The represented volume and the numbers of points -/

theorem view_sum {inp : VolumeInput K} {l : List (Kind × Nat × Elem K)}
    (hperm : l.Perm ((List.range inp.classes.length).filterMap (wantedEntry inp))) {β : Type _} [AddCommMonoid β]
    (f : Kind × Elem K → β) : (l.map fun x => f (x.1, x.2.2)).sum = cellSum inp f := by
  rw [(hperm.map _).sum_eq, sum_filterMap]
  unfold cellSum
  congr 2
  funext i
  unfold wantedEntry
  cases wantedElement inp i <;> rfl

/-- Under every schedule: the reported volume is the sum of the weights, mapped to physical space, of all
points of all elements, summed over the cells; the numbers of points are those of the elements; the
averages and the percentage are what their names say. -/
theorem C69_represented_volume (debug : Bool) (inp : VolumeInput K) (hN : inp.classes.length < 2 ^ 31)
    (order : List Nat) (hp : order.Perm (scheduled inp)) :
    ∃ s info, computeVolume debug inp order {} = some (s, info) ∧
      info.represented = cellSum inp (fun e => physicalWeight e.2) ∧
      info.totPoints = cellSum inp (fun e => e.2.points.length) ∧
      (inp.volume ≠ 0 → info.percentage * inp.volume = 100 * cellSum inp (fun e => physicalWeight e.2)) ∧
      (CharZero K → info.pointsPerFull * (info.numFull : K) = (cellSum inp fullPoints : Nat)) ∧
      (CharZero K → info.pointsPerTrimmed * (info.numTrimmed : K) = (cellSum inp trimmedPoints : Nat)) := by
  obtain ⟨s1, s, h1, h2, h3, _⟩ := volume_result debug inp order (hp.nodup_iff.mpr (scheduled_nodup inp))
  obtain ⟨s', info', hc1, hc2, hc3, hc4, hc5, hc6⟩ := C49_counts debug inp (by omega) order hp
  have heq : s' = s ∧ info' = volumeInfo inp s := by
    rw [h1] at hc1; simp only [Option.some.injEq, Prod.mk.injEq] at hc1; exact ⟨hc1.1.symm, hc1.2.symm⟩
  obtain ⟨rfl, rfl⟩ := heq
  rw [scheduled_small hN] at hp
  have hperm := (views_all_perm h3).trans (final_log hp h2)
  have hsum {β : Type} [AddCommMonoid β] (f : Kind × Elem K → β) := view_sum hperm f
  have hacc := accumulate_eq (s'.views .all)
  have hR : (volumeInfo inp s').represented = cellSum inp (fun e => physicalWeight e.2) := by
    show (accumulate (s'.views .all)).1 = _
    rw [hacc]; exact view_sum hperm (fun e => physicalWeight e.2)
  have hF : (accumulate (s'.views .all)).2.1 = cellSum inp fullPoints := by rw [hacc]; exact hsum fullPoints
  have hT : (accumulate (s'.views .all)).2.2 = cellSum inp trimmedPoints := by rw [hacc]; exact hsum trimmedPoints
  refine ⟨s', _, h1, hR, ?_, ?_, ?_, ?_⟩
  · show (accumulate (s'.views .all)).2.2 + (accumulate (s'.views .all)).2.1 = _
    rw [hF, hT, ← hsum fullPoints, ← hsum trimmedPoints, ← hsum (fun e => e.2.points.length)]
    induction s'.views .all with
    | nil => rfl
    | cons x l ih =>
      simp only [List.map_cons, List.sum_cons]
      rw [← ih]
      obtain ⟨k, id, e⟩ := x
      cases k <;> simp [fullPoints, trimmedPoints] <;> omega
  · intro hv
    have : (volumeInfo inp s').percentage = (volumeInfo inp s').represented / inp.volume * 100 := rfl
    rw [this, hR]
    field_simp
  · intro _
    have : (volumeInfo inp s').pointsPerFull = if (volumeInfo inp s').numFull > 0 then
      ((accumulate (s'.views .all)).2.1 : K) / ((volumeInfo inp s').numFull : K) else 0 := rfl
    rw [this, hF]
    split
    · rename_i hpos
      have : ((volumeInfo inp s').numFull : K) ≠ 0 := by exact_mod_cast hpos.ne'
      field_simp
    · rename_i h0
      have h0' : (s'.views .untrimmed).length = 0 := by omega
      have : cellSum inp fullPoints = 0 := by
        rw [← hsum fullPoints]
        have : s'.views .all = s'.views .trimmed := by
          have : s'.views .all = s'.views .untrimmed ++ s'.views .trimmed := rfl
          rw [this, List.length_eq_zero_iff.mp h0']; rfl
        rw [this]
        simp [State.views, fullPoints, Function.comp_def]
      rw [this]; simp
  · intro _
    have : (volumeInfo inp s').pointsPerTrimmed = if (volumeInfo inp s').numTrimmed > 0 then
      ((accumulate (s'.views .all)).2.2 : K) / ((volumeInfo inp s').numTrimmed : K) else 0 := rfl
    rw [this, hT]
    split
    · rename_i hpos
      have : ((volumeInfo inp s').numTrimmed : K) ≠ 0 := by exact_mod_cast hpos.ne'
      field_simp
    · rename_i h0
      have h0' : (s'.views .trimmed).length = 0 := by omega
      have : cellSum inp trimmedPoints = 0 := by
        rw [← hsum trimmedPoints]
        have : s'.views .all = s'.views .untrimmed := by
          have : s'.views .all = s'.views .untrimmed ++ s'.views .trimmed := rfl
          rw [this, List.length_eq_zero_iff.mp h0', List.append_nil]
        rw [this]
        simp [State.views, trimmedPoints, Function.comp_def]
      rw [this]; simp

/-! ## C70 A second volume computation on the same model -/

theorem makeAll_none_of_locked (inp : VolumeInput K) (s : State (Elem K)) (hl : s.locked = true) (i : Nat)
    (l : List Nat) : makeAll inp (i :: l) s = none := by
  simp [makeAll, State.make, hl]

/-- In a build with assertions, a second volume computation on the same model never goes through if it has
an active cell. -/
theorem C70_locked (inp inp' : VolumeInput K) (order order' : List Nat) (hp : order.Perm (scheduled inp))
    (s : State (Elem K)) (info : VolumeInfo K) (h : computeVolume true inp order {} = some (s, info))
    (hne : order' ≠ []) : computeVolume true inp' order' s = none := by
  obtain ⟨s1, s', h1, _, _, h4⟩ := volume_result true inp order (hp.nodup_iff.mpr (scheduled_nodup inp))
  rw [h1] at h
  simp only [Option.some.injEq, Prod.mk.injEq] at h
  obtain ⟨rfl, _⟩ := h
  cases order' with
  | nil => exact absurd rfl hne
  | cons i l => simp [computeVolume, makeAll_none_of_locked inp' s' h4]

theorem makeAll_none_of_dup (inp : VolumeInput K) : ∀ (order : List Nat) (s : State (Elem K)) L, Inv s L →
    s.locked = false → (∃ i ∈ order, (entryOf inp i).isSome ∧ ∃ x ∈ L, x.2.1 = i + 1) →
    makeAll inp order s = none := by
  intro order
  induction order with
  | nil => rintro s L _ _ ⟨i, hi, _⟩; cases hi
  | cons j l ih =>
    rintro s L h hl ⟨i, hi, he, x, hx, hxi⟩
    unfold makeAll
    simp only [callOf_id]
    cases hc : (callOf inp j).2.2 with
    | none =>
      have : s.make (callOf inp j).1 (j + 1) none = (s, .notBuilt) := by simp [State.make, hl]
      rw [this]
      refine ih s L h hl ⟨i, ?_, he, x, hx, hxi⟩
      rcases List.mem_cons.mp hi with rfl | hi
      · simp [entryOf, hc] at he
      · exact hi
    | some e =>
      obtain ⟨k1, k2, k3⟩ := inv_make h hl (callOf inp j).1 (j + 1) e
      generalize hm : s.make (callOf inp j).1 (j + 1) (some e) = r at k1 k2 k3
      obtain ⟨s2, o⟩ := r
      by_cases hany : L.any (fun y => y.2.1 == j + 1) = true
      · rw [if_pos hany] at k3
        simp only at k3; subst k3; rfl
      · rw [if_neg hany] at k3
        simp only at k3; subst k3
        simp only
        have hij : i ≠ j := by
          rintro rfl
          exact hany (List.any_eq_true.mpr ⟨x, hx, by simpa using hxi⟩)
        refine ih s2 _ k1 k2 ⟨i, ?_, he, x, ?_, hxi⟩
        · rcases List.mem_cons.mp hi with h' | h'
          · exact absurd h' hij
          · exact h'
        · unfold addLog
          rw [if_neg hany]
          exact List.mem_append_left _ hx

/-- In a release build the lock is not looked at.  A second volume computation still fails as soon as it
builds an element in a cell that already has one, under every schedule. -/
theorem C70_release (inp inp' : VolumeInput K) (order order' : List Nat) (hN : inp.classes.length < 2 ^ 31)
    (hN' : inp'.classes.length < 2 ^ 31) (hp : order.Perm (scheduled inp)) (hp' : order'.Perm (scheduled inp'))
    (s : State (Elem K)) (info : VolumeInfo K) (h : computeVolume false inp order {} = some (s, info))
    (i : Nat) (hi : (wantedElement inp i).isSome) (hi' : (wantedElement inp' i).isSome) :
    computeVolume false inp' order' s = none := by
  obtain ⟨s1, s', h1, h2, h3, h4⟩ := volume_result false inp order (hp.nodup_iff.mpr (scheduled_nodup inp))
  rw [h1] at h
  simp only [Option.some.injEq, Prod.mk.injEq] at h
  obtain ⟨rfl, _⟩ := h
  rw [scheduled_small hN] at hp
  rw [scheduled_small hN'] at hp'
  have hact : ∀ {q : VolumeInput K}, (wantedElement q i).isSome → i ∈ activeIndices q := by
    intro q hq
    by_contra hn
    rw [wanted_none hn] at hq; cases hq
  have hI : Inv ({ s' with locked := false } : State (Elem K)) ((order.filterMap (entryOf inp)).map (post inp s1)) :=
    ⟨h3.nodup, h3.unt, h3.tri, h3.keys, h3.look⟩
  have : makeAll inp' order' { s' with locked := false } = none := by
    refine makeAll_none_of_dup inp' order' _ _ hI rfl ⟨i, hp'.mem_iff.mpr (hact hi'), ?_, ?_⟩
    · rcases mem_active.mp (hact hi') with hc | hc
      · rw [entry_trimmed hc]
        unfold buildTrimmed
        unfold wantedElement at hi'
        rw [hc] at hi'
        cases ht : inp'.trimmedPts i with
        | none => simp [ht] at hi'
        | some ps => cases ps <;> simp [ht] at hi' ⊢
      · rw [entry_inside hc]; rfl
    · obtain ⟨y, hy⟩ := Option.isSome_iff_exists.mp hi
      refine ⟨(y.1, i + 1, y.2), (final_log hp h2).mem_iff.mpr ?_, rfl⟩
      refine List.mem_filterMap.mpr ⟨i, ?_, by simp [wantedEntry, hy]⟩
      have := hact hi
      unfold activeIndices at this
      exact (List.mem_filter.mp this).1
  simp [computeVolume, this]

def unitBounds : Bounds ℚ := ⟨⟨⟨0, 0, 0⟩, ⟨2, 1, 1⟩⟩, ⟨⟨0, 0, 0⟩, ⟨1, 1, 1⟩⟩⟩

/-- Two cells, one of them inside, generalised rules giving one point of weight 1 to every full element. -/
def ggqInput (first : Bool) : VolumeInput ℚ :=
  ⟨if first then [.inside, .outside] else [.outside, .inside], fun _ => unitBounds, fun _ => none, true,
    fun _ => [], fun _ _ => [⟨⟨1/2, 1/2, 1/2⟩, 1⟩], 2⟩

/-- In a release build with generalised rules, two volume computations with different cells both succeed, but
the second one gives the elements of the first one their points a second time: two elements of volume 2
are reported to represent the volume 6. -/
theorem C70_false_of_code :
    ((computeVolume false (ggqInput true) [0] {}).bind fun r =>
      (computeVolume false (ggqInput false) [1] r.1).map fun q =>
        (q.2.represented, q.1.untrimmed.map fun e => (e.1, e.2.points.length))) =
      some (6, [(1, 2), (2, 1)]) ∧
    scheduled (ggqInput true) = [0] ∧ scheduled (ggqInput false) = [1] := by
  decide +kernel

/-! ## Non-trivial instances -/

/-- Four cells: inside, trimmed with a point, outside, trimmed without points. -/
def sampleInput : VolumeInput ℚ :=
  ⟨[.inside, .trimmed, .outside, .trimmed], fun _ => unitBounds,
    fun i => if i = 1 then some [⟨⟨1/2, 1/2, 1/2⟩, 1/4⟩] else some [], false,
    fun _ => [⟨⟨1/4, 1/2, 1/2⟩, 1/2⟩, ⟨⟨3/4, 1/2, 1/2⟩, 1/2⟩], fun _ _ => [], 3⟩

/-- The loop runs over cells 0, 1, 3 and may run backwards; one full and one trimmed element are stored, the
represented volume is 2 + 1/2. -/
example : scheduled sampleInput = [0, 1, 3] ∧
    ((computeVolume true sampleInput [3, 1, 0] {}).map fun r =>
      (r.2.numActive, r.2.numTrimmed, r.2.numFull, r.2.numInactive, r.2.totPoints)) = some (2, 1, 1, 2, 3) ∧
    ((computeVolume true sampleInput [3, 1, 0] {}).map fun r => r.2.represented) = some (5/2) := by
  decide +kernel

/-- The same computation a second time fails. -/
example : ((computeVolume false sampleInput [0, 1, 3] {}).bind fun r =>
    (computeVolume false sampleInput [3, 0, 1] r.1).map fun q => q.2.numActive) = none := by
  decide +kernel

/-- A condition with triangles in cells 0 and 2 (cell 2 has no element). -/
example : ((computeVolume true sampleInput [3, 1, 0] {}).map fun r =>
    let c := computeCondition r.1 (fun i => if i = 0 then 2 else if i = 2 then 3 else 0) (fun m : Nat => m)
      (fun m => (m : ℚ)) 5 [2, 0, 1, 3]
    (c.1.map fun g => (g.cell, g.parent.map (·.2.1)), c.2)) = some ([(2, none), (0, some 1)], 40) := by
  decide +kernel

end QuESo.Props
