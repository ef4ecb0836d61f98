import Verif.Proofs.BackgroundGrid
import Verif.Props.Grid

/-!
# Properties C06 – C09: element storage and neighbour lookup
-/
namespace QuESo.Props
open QuESo.Grid QuESo.Spec QuESo.BGrid
variable {α : Type _}

/-- The grid after a history of calls, starting from the freshly constructed grid. -/
abbrev gridAfter (ops : List (Op α)) : State α := ({} : State α).run ops

theorem gridAfter_inv (ops : List (Op α)) : Inv (gridAfter ops) ((built ops).foldl addLog []) :=
  run_inv ops _ _ inv_init rfl

theorem locked_iff (ops : List (Op α)) (s : State α) :
    (s.run ops).locked = true ↔ s.locked = true ∨ ∃ o ∈ ops, o = .lock := by
  induction ops generalizing s with
  | nil => simp [State.run]
  | cons o ops ih =>
    have e : s.run (o :: ops) = (s.step o).1.run ops := rfl
    rw [e, ih]
    cases o with
    | lock => simp [State.step, State.lock]
    | make k id b =>
      have : (s.step (.make k id b)).1.locked = s.locked := by
        simp only [State.step, State.make, State.pushTrimmed, State.pushUntrimmed]
        split
        · rfl
        · split
          · rfl
          · split
            · rfl
            · split <;> rfl
      rw [this]; simp

/-! ## C06 Lookup after any history -/

/-- Every lookup, with every filter, answers what the history says (in particular it is never
undefined behaviour): the first element built under that id, if the filter accepts its kind. -/
theorem C06_lookup (ops : List (Op α)) (f : Filter) (id : Nat) :
    (gridAfter ops).getElement f id = expectedLookup ops f id := by
  rw [getElement_of_inv (gridAfter_inv ops) f id, foldl_addLog_find]
  simp only [List.find?_nil, Option.none_or]
  rfl

/-- The element views list every stored element (accepted by the filter) exactly once, and nothing
else; ids are never listed twice. -/
theorem C06_views (ops : List (Op α)) (f : Filter) :
    (((gridAfter ops).views f).map (·.2.1)).Nodup ∧
    ∀ e, e ∈ (gridAfter ops).views f ↔ (stored ops e.2.1 = some e ∧ accepts f e.1 = true) := by
  have hI := gridAfter_inv ops
  obtain ⟨l, hl⟩ : ∃ l, l = (built ops).foldl addLog [] := ⟨_, rfl⟩
  rw [← hl] at hI
  have hst : ∀ e : Kind × Nat × α, e ∈ l ↔ stored ops e.2.1 = some e := by
    intro e
    have hf : l.find? (fun x => x.2.1 == e.2.1) = stored ops e.2.1 := by
      rw [hl, foldl_addLog_find]; simp [stored]
    rw [← hf]
    constructor
    · intro h; exact find_of_nodup hI.nodup (by simpa using h)
    · intro h; exact List.mem_of_find?_eq_some h
  have hproj : ∀ k, (proj k l).map (fun e => (k, e.1, e.2)) = l.filter (isKind k) := by
    intro k
    unfold proj
    rw [List.map_map]
    have : ∀ e ∈ l.filter (isKind k), ((fun e => (k, e.1, e.2)) ∘ fun x => x.2) e = e := by
      intro e he
      have := (List.mem_filter.mp he).2
      simp only [isKind, beq_iff_eq] at this
      simp [← this]
    calc _ = (l.filter (isKind k)).map _root_.id := List.map_congr_left this
      _ = _ := List.map_id _
  have hv : ∀ k, (match k with
      | Kind.untrimmed => (gridAfter ops).views .untrimmed
      | Kind.trimmed => (gridAfter ops).views .trimmed) = l.filter (isKind k) := by
    intro k
    cases k
    · simp only [State.views]; rw [hI.tri, hproj]
    · simp only [State.views]; rw [hI.unt, hproj]
  have hu : (gridAfter ops).views .untrimmed = l.filter (isKind .untrimmed) := hv .untrimmed
  have ht : (gridAfter ops).views .trimmed = l.filter (isKind .trimmed) := hv .trimmed
  have ha : (gridAfter ops).views .all = l.filter (isKind .untrimmed) ++ l.filter (isKind .trimmed) := by
    rw [← hu, ← ht]; rfl
  have hnd : ∀ k, ((l.filter (isKind k)).map (·.2.1)).Nodup := fun k =>
    hI.nodup.sublist (List.filter_sublist.map _)
  cases f with
  | untrimmed =>
    rw [hu]
    refine ⟨hnd _, fun e => ?_⟩
    rw [List.mem_filter, hst]
    obtain ⟨k, i, a⟩ := e
    cases k <;> simp [isKind, accepts]
  | trimmed =>
    rw [ht]
    refine ⟨hnd _, fun e => ?_⟩
    rw [List.mem_filter, hst]
    obtain ⟨k, i, a⟩ := e
    cases k <;> simp [isKind, accepts]
  | all =>
    rw [ha]
    refine ⟨?_, fun e => ?_⟩
    · rw [List.map_append, List.nodup_append]
      refine ⟨hnd _, hnd _, ?_⟩
      intro x hx y hy hxy
      obtain ⟨e, he, rfl⟩ := List.mem_map.mp hx
      obtain ⟨e', he', rfl⟩ := List.mem_map.mp hy
      rw [List.mem_filter] at he he'
      have h1 := (hst e).mp he.1
      have h2 := (hst e').mp he'.1
      rw [hxy, h2] at h1
      have h3 : e' = e := by simpa using h1
      rw [h3] at he'
      have a1 := he.2
      have a2 := he'.2
      simp only [isKind, beq_iff_eq] at a1 a2
      rw [a1] at a2; cases a2
    · rw [List.mem_append, List.mem_filter, List.mem_filter, hst]
      obtain ⟨k, i, a⟩ := e
      cases k <;> simp [isKind, accepts]

/-- The reported counts are the numbers of listed elements, and the total is the sum. -/
theorem C06_counts (ops : List (Op α)) :
    (gridAfter ops).numUntrimmed = ((gridAfter ops).views .untrimmed).length ∧
    (gridAfter ops).numTrimmed = ((gridAfter ops).views .trimmed).length ∧
    (gridAfter ops).numActive = ((gridAfter ops).views .all).length ∧
    (gridAfter ops).numActive = (gridAfter ops).numUntrimmed + (gridAfter ops).numTrimmed := by
  simp [State.numUntrimmed, State.numTrimmed, State.numActive, State.views]

/-- A construction that fails, or comes with an id that is already stored, or comes after the lock,
changes nothing and says so; otherwise the element is inserted. -/
theorem C06_make_result (ops : List (Op α)) (k : Kind) (id : Nat) (b : Option α) :
    let s := gridAfter ops
    (Op.lock ∈ ops → s.make k id b = (s, .lockedError)) ∧
    (Op.lock ∉ ops → b = none → s.make k id b = (s, .notBuilt)) ∧
    (Op.lock ∉ ops → b.isSome → (stored ops id).isSome → s.make k id b = (s, .duplicateError)) ∧
    (Op.lock ∉ ops → b.isSome → stored ops id = none → (s.make k id b).2 = .inserted) := by
  intro s
  have hlock : s.locked = true ↔ Op.lock ∈ ops := by
    have := locked_iff ops ({} : State α)
    simpa using this
  have hI : Inv s _ := gridAfter_inv ops
  have hfind : ∀ id, (s.find id).isSome = (stored ops id).isSome := by
    intro id
    rw [hI.keys id]
    have hf : ((built ops).foldl addLog []).find? (fun x => x.2.1 == id) = stored ops id := by
      rw [foldl_addLog_find]; simp [stored]
    rw [← hf, Bool.eq_iff_iff, List.find?_isSome, List.any_eq_true]
  refine ⟨?_, ?_, ?_, ?_⟩
  · intro h; simp [State.make, hlock.mpr h]
  · intro h hb
    have : s.locked = false := by rw [Bool.eq_false_iff]; exact fun hc => h (hlock.mp hc)
    simp [State.make, this, hb]
  · intro h hb hs
    have : s.locked = false := by rw [Bool.eq_false_iff]; exact fun hc => h (hlock.mp hc)
    obtain ⟨a, rfl⟩ := Option.isSome_iff_exists.mp hb
    rw [← hfind] at hs
    simp [State.make, this, hs]
  · intro h hb hs
    have : s.locked = false := by rw [Bool.eq_false_iff]; exact fun hc => h (hlock.mp hc)
    obtain ⟨a, rfl⟩ := Option.isSome_iff_exists.mp hb
    have h2 := hfind id
    rw [hs] at h2
    cases k <;> simp [State.make, this, h2]

example : (gridAfter [Op.make .untrimmed 7 (some "a"), .make .trimmed 3 (some "b"), .make .trimmed 7 (some "c"),
      .make .trimmed 4 none, .lock, .make .untrimmed 9 (some "d")]).getElement .all 7 = .elem .untrimmed 7 "a" ∧
    (gridAfter [Op.make .untrimmed 7 (some "a"), .make .trimmed 3 (some "b"), .make .trimmed 7 (some "c"),
      .make .trimmed 4 none, .lock, .make .untrimmed 9 (some "d")]).numActive = 2 := by
  decide

/-! ## C07 Order of insertion -/

/-- Two orders of the same insertions with pairwise different ids: all lookups agree, the counts
agree, and the listed elements are the same up to order. -/
theorem C07_order_independent (es es' : List (Kind × Nat × α)) (hp : es.Perm es')
    (hd : (es.map (·.2.1)).Nodup) :
    let mk : Kind × Nat × α → Op α := fun e => .make e.1 e.2.1 (some e.2.2)
    let s := gridAfter (es.map mk)
    let s' := gridAfter (es'.map mk)
    (∀ f id, s.getElement f id = s'.getElement f id) ∧
    s.numTrimmed = s'.numTrimmed ∧ s.numUntrimmed = s'.numUntrimmed ∧ s.numActive = s'.numActive ∧
    (∀ f, (s.views f).Perm (s'.views f)) := by
  intro mk s s'
  have hb : ∀ l : List (Kind × Nat × α), built (l.map mk) = l := by
    intro l
    induction l with
    | nil => rfl
    | cons e l ih => simp [mk, built] at *; exact ih
  have hd' : (es'.map (·.2.1)).Nodup := (hp.map _).nodup_iff.mp hd
  have hI : Inv s es := by
    have := gridAfter_inv (es.map mk)
    rwa [hb, addLog_nodup es [] (by simp) hd (by simp), List.nil_append] at this
  have hI' : Inv s' es' := by
    have := gridAfter_inv (es'.map mk)
    rwa [hb, addLog_nodup es' [] (by simp) hd' (by simp), List.nil_append] at this
  have hproj : ∀ k, (proj k es).Perm (proj k es') := fun k => (hp.filter _).map _
  have hu : s.untrimmed.Perm s'.untrimmed := by rw [hI.unt, hI'.unt]; exact hproj _
  have ht : s.trimmed.Perm s'.trimmed := by rw [hI.tri, hI'.tri]; exact hproj _
  refine ⟨fun f id => ?_, ht.length_eq, hu.length_eq, by
    simp [State.numActive, hu.length_eq, ht.length_eq], fun f => ?_⟩
  · rw [getElement_of_inv hI, getElement_of_inv hI']
    have : es.find? (fun e => e.2.1 == id) = es'.find? (fun e => e.2.1 == id) := by
      cases h : es.find? (fun e => e.2.1 == id) with
      | none =>
        symm
        rw [List.find?_eq_none] at h ⊢
        exact fun x hx => h x (hp.mem_iff.mpr hx)
      | some e =>
        have hm := List.mem_of_find?_eq_some h
        have he := List.find?_some h
        simp at he
        have := find_of_nodup hd' (k := e.1) (id := e.2.1) (a := e.2.2) (hp.mem_iff.mp hm)
        rw [he] at this
        rw [this]
        rw [← he]
    rw [this]
  · cases f with
    | all => exact (hu.map _).append (ht.map _)
    | trimmed => exact ht.map _
    | untrimmed => exact hu.map _

example : ([(Kind.trimmed, 3, "b"), (.untrimmed, 7, "a")].map (fun e => e.2.1)).Nodup ∧
    [(Kind.trimmed, 3, "b"), (.untrimmed, 7, "a")].Perm [(Kind.untrimmed, 7, "a"), (.trimmed, 3, "b")] := by
  decide

/-! ## C08 Neighbour lookup -/

theorem id_sub_inPart (n : V3 Nat) (id : Nat) (h1 : 1 ≤ id) (h2 : id ≤ numElements n) :
    ValidPart n (globalPartition n) ∧ InPart (globalPartition n) (toMat n (id - 1)) := by
  have hpos : 0 < numElements n := by omega
  obtain ⟨hv, hg⟩ := C02_global_partition n hpos
  exact ⟨hv, (hg _).mp (toMat_inGrid n _ (by omega))⟩

theorem neighbour_unique {d : Dir} {v w w' : V3 Nat} (h : Neighbour d v w) (h' : Neighbour d v w') :
    w = w' := by
  cases d <;> simp only [Neighbour] at h h' <;> apply V3.ext' <;> omega

/-- The neighbour lookup reports 'not at the end' exactly when the adjacent cell exists in the grid
and holds an element accepted by the filter; then it returns this element and its id. -/
theorem C08_next_element (ops : List (Op α)) (n : V3 Nat) (f : Filter) (id : Nat) (d : Dir)
    (h1 : 1 ≤ id) (h2 : id ≤ numElements n) :
    let r := (gridAfter ops).nextElement n f id d
    (r.isEnd = false ↔ ∃ w, InGrid n w ∧ Neighbour d (toMat n (id - 1)) w ∧
        ∃ k a, expectedLookup ops f (toVec n w + 1) = .elem k (toVec n w + 1) a) ∧
    (r.isEnd = false → ∃ w k a, InGrid n w ∧ Neighbour d (toMat n (id - 1)) w ∧
        r.nextId = toVec n w + 1 ∧ r.element = .elem k (toVec n w + 1) a ∧
        stored ops (toVec n w + 1) = some (k, toVec n w + 1, a)) := by
  intro r
  obtain ⟨hv, hin⟩ := id_sub_inPart n id h1 h2
  have hpos : 0 < numElements n := by omega
  have hgrid := (C02_global_partition n hpos).2
  have hm := C02_middle_is_neighbour n _ hv d (id - 1) hin
  have hst := C02_step_stays n _ hv d (id - 1) hin
  have hel : r.element = expectedLookup ops f ((nextGlobal n d (id - 1)).1 + 1) := C06_lookup ops f _
  have hexp : ∀ j, (expectedLookup ops f j).present = true →
      ∃ k a, expectedLookup ops f j = .elem k j a ∧ stored ops j = some (k, j, a) := by
    intro j hj
    unfold expectedLookup at hj ⊢
    cases hs : stored ops j with
    | none => rw [hs] at hj; simp [Look.present] at hj
    | some e =>
      obtain ⟨k, i, a⟩ := e
      have hi : i = j := by
        have := List.find?_some hs
        simpa using this
      subst hi
      rw [hs] at hj
      refine ⟨k, a, ?_, rfl⟩
      by_cases ha : accepts f k = true
      · simp [ha]
      · simp [ha, Look.present] at hj
  have hend : r.isEnd = false ↔ ((nextGlobal n d (id - 1)).2 = .middle ∧ r.element.present = true) := by
    have : r.isEnd = if !r.element.present then true else ((nextGlobal n d (id - 1)).2 != .middle) := rfl
    rw [this]
    cases r.element.present <;> simp
  have key : r.isEnd = false → ∃ w k a, InGrid n w ∧ Neighbour d (toMat n (id - 1)) w ∧
        r.nextId = toVec n w + 1 ∧ r.element = .elem k (toVec n w + 1) a ∧
        stored ops (toVec n w + 1) = some (k, toVec n w + 1, a) := by
    intro he
    obtain ⟨e1, e2⟩ := hend.mp he
    have hnb := hm.2 e1
    refine ⟨toMat n (nextGlobal n d (id - 1)).1, ?_⟩
    rw [hel] at e2 ⊢
    obtain ⟨k, a, h3, h4⟩ := hexp _ e2
    refine ⟨k, a, (hgrid _).mpr hst, hnb, ?_, ?_, ?_⟩
    · rw [toVec_toMat]; rfl
    · rw [toVec_toMat]; exact h3
    · rw [toVec_toMat]; exact h4
  refine ⟨⟨fun he => ?_, ?_⟩, key⟩
  · obtain ⟨w, k, a, g1, g2, g3, g4, g5⟩ := key he
    refine ⟨w, g1, g2, k, a, ?_⟩
    rw [← g4, hel]
    have : r.nextId = (nextGlobal n d (id - 1)).1 + 1 := rfl
    rw [← this, g3]
  · rintro ⟨w, hw, hnb, k, a, he⟩
    have hmid : (nextGlobal n d (id - 1)).2 = .middle := hm.1.mpr ⟨w, (hgrid w).mp hw, hnb⟩
    have hw' : toMat n (nextGlobal n d (id - 1)).1 = w := neighbour_unique (hm.2 hmid) hnb
    rw [hend]
    refine ⟨hmid, ?_⟩
    rw [hel]
    have : (nextGlobal n d (id - 1)).1 = toVec n w := by rw [← hw', toVec_toMat]
    rw [this, he]; rfl

/-- The end test of the grid: true exactly when there is no adjacent cell. -/
theorem C08_isEnd (n : V3 Nat) (id : Nat) (d : Dir) (h1 : 1 ≤ id) (h2 : id ≤ numElements n) :
    BGrid.isEnd n id d = true ↔ ¬ ∃ w, InGrid n w ∧ Neighbour d (toMat n (id - 1)) w := by
  obtain ⟨hv, hin⟩ := id_sub_inPart n id h1 h2
  have hpos : 0 < numElements n := by omega
  have hgrid := (C02_global_partition n hpos).2
  unfold BGrid.isEnd
  rw [(C04_isEnd_iff n _ hv d (id - 1) hin).2]
  simp only [hgrid]

example : ((gridAfter [Op.make .untrimmed 1 (some ()), .make .untrimmed 2 (some ())]).nextElement ⟨2, 2, 1⟩
    .untrimmed 1 .xf).isEnd = false := by decide

/-! ## C09 The handed-out element -/

/-- FALSE of the code: the neighbour lookup hands out elements that are not adjacent.  On a 2×2×1 grid
with elements 1, 2 and 3 the lookup from element 2 = (1,0,0) in forward x-direction hands out element
3 = (0,1,0) (together with the flag 'end'). -/
theorem C09_false_of_code :
    ¬ ∀ (ops : List (Op Unit)) (n : V3 Nat) (f : Filter) (id : Nat) (d : Dir), 1 ≤ id → id ≤ numElements n →
      ∀ k i a, ((gridAfter ops).nextElement n f id d).element = .elem k i a →
        Neighbour d (toMat n (id - 1)) (toMat n (i - 1)) := by
  intro h
  have := h [.make .untrimmed 1 (some ()), .make .untrimmed 2 (some ()), .make .untrimmed 3 (some ())]
    ⟨2, 2, 1⟩ .untrimmed 2 .xf (by decide) (by decide) .untrimmed 3 () (by decide)
  exact absurd this (by simp only [Neighbour]; decide)

/-- What holds: if the adjacent cell exists in the grid, the element handed out is that of the
adjacent cell (nothing if it holds none).  Missing for the full property: the case in which there is no
adjacent cell in the grid, where the code hands out the first element of the next row. -/
theorem C09_adjacent_partial (ops : List (Op α)) (n : V3 Nat) (f : Filter) (id : Nat) (d : Dir)
    (h1 : 1 ≤ id) (h2 : id ≤ numElements n) (w : V3 Nat) (hw : InGrid n w)
    (hn : Neighbour d (toMat n (id - 1)) w) :
    ((gridAfter ops).nextElement n f id d).element = expectedLookup ops f (toVec n w + 1) := by
  obtain ⟨hv, hin⟩ := id_sub_inPart n id h1 h2
  have hpos : 0 < numElements n := by omega
  have hgrid := (C02_global_partition n hpos).2
  have hm := C02_middle_is_neighbour n _ hv d (id - 1) hin
  have hmid : (nextGlobal n d (id - 1)).2 = .middle := hm.1.mpr ⟨w, (hgrid w).mp hw, hn⟩
  have hw' : toMat n (nextGlobal n d (id - 1)).1 = w := neighbour_unique (hm.2 hmid) hn
  have hel : ((gridAfter ops).nextElement n f id d).element =
      expectedLookup ops f ((nextGlobal n d (id - 1)).1 + 1) := C06_lookup ops f _
  rw [hel, ← hw', toVec_toMat]

example : InGrid ⟨2, 2, 1⟩ ⟨1, 0, 0⟩ ∧ Neighbour .xf (toMat ⟨2, 2, 1⟩ (1 - 1)) ⟨1, 0, 0⟩ := by
  simp only [InGrid, Neighbour]; decide

end QuESo.Props
