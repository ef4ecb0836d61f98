import Verif.Spec.Parallel
import Verif.Props.FloodFill

/-!
# C109: the parallel loops have no data races
-/
namespace QuESo.Par
open QuESo.Grid QuESo.Flood QuESo.Spec QuESo.Props

/-! ## The functions with logs do the same as those without -/

theorem moveLog_fst (G : Geo) (n : V3 Nat) (p : Partition) (i : Nat) (d : Dir) (st : FS) : (moveLog G n p i d st).1 = move G n p i d st := by
  unfold moveLog move
  simp only
  repeat' split
  all_goals rfl

theorem movesLog_fst (G : Geo) (n : V3 Nat) (p : Partition) (i : Nat) (ds : List Dir) (st : FS) : (movesLog G n p i ds st).1 = moves G n p i ds st := by
  induction ds generalizing st with
  | nil => rfl
  | cons d ds ih => simp only [movesLog, moves, moveLog_fst, ih]

theorem fillLog_fst (G : Geo) (n : V3 Nat) (p : Partition) (fuel : Nat) (stack : List Nat) (st : FS) :
    (fillLog G n p fuel stack st).1 = fillLoop G n p fuel stack st := by
  induction fuel generalizing stack st with
  | zero => cases stack <;> rfl
  | succ fuel ih =>
    cases stack with
    | nil => rfl
    | cons i stack => simp only [fillLog, fillLoop, movesLog_fst, ih]

theorem scanCellLog_fst (G : Geo) (n : V3 Nat) (p : Partition) (pi fuel i : Nat) (ps : PS) : (scanCellLog G n p pi fuel i ps).1 = scanCell G n p pi fuel i ps := by
  unfold scanCellLog scanCell
  split
  · rfl
  · split
    · rfl
    · simp only [fillLog_fst]
      split <;> simp_all

theorem scanLog_fst (G : Geo) (n : V3 Nat) (p : Partition) (pi fuel : Nat) (is : List Nat) (ps : PS) : (scanLog G n p pi fuel is ps).1 = scan G n p pi fuel is ps := by
  induction is generalizing ps with
  | nil => rfl
  | cons i is ih =>
    simp only [scanLog, scan]
    rw [← scanCellLog_fst G n p pi fuel i ps]
    split <;> simp_all

/-- The fill with its log gives the same result as the fill whose result the other theorems are about. -/
theorem C109_same_fill (G : Geo) (n : V3 Nat) (fuel pi : Nat) (p : Partition) : (partitionLog G n fuel pi p ⟨[], [], []⟩).1 = fillPartition G n fuel pi p :=
  scanLog_fst G n p pi fuel _ _

theorem cellsLog_fst (G : Geo) (n : V3 Nat) (pd : Nat) (p : Partition) (g part : Nat) (cells : List Nat) (b : Bnd) (v : Int) :
    (cellsLog G n pd p g part cells b v).1 = (cells.foldl (bndStep G n pd) b, v + (cells.map (extraVotes G n pd p)).sum) := by
  induction cells generalizing b v with
  | nil => simp [cellsLog]
  | cons i cells ih => simp only [cellsLog, ih, List.foldl_cons, List.map_cons, List.sum_cons]; rw [Int.add_assoc]

/-- The loop over a group with its log gives the boundary cells and the votes that the other theorems are about. -/
theorem C109_same_merge (G : Geo) (n : V3 Nat) (pd : Nat) (parts : List Partition) (gr : Group) {p : Partition} (hp : parts[gr.part]? = some p) (g : Nat) :
    (cellsLog G n pd p g gr.part gr.cells (Bnd.init n pd) gr.count).1 = (bnd G n pd gr, (addVotes G n pd parts gr).count) := by
  rw [cellsLog_fst]
  unfold addVotes
  rw [hp]
  rfl

/-! ## What the fill of a partition does -/

/-- A step that the fill of the partition `p` may do. -/
def FillOk (n : V3 Nat) (p : Partition) : Step → Prop
  | .mark j => inP n p j
  | _ => True

variable {G : Geo} {n : V3 Nat} {p : Partition} {pi : Nat}

theorem move_ok (hp : ValidPart n p) {i : Nat} (hi : inP n p i) (d : Dir) (st : FS) :
    (∀ a ∈ (moveLog G n p i d st).2, FillOk n p a) ∧ ∀ j, (moveLog G n p i d st).1.2 = some j → inP n p j := by
  unfold moveLog
  simp only
  split
  · simp [FillOk]
  · rename_i h
    have hj := (next_mid hp hi (Decidable.not_not.mp h)).1
    repeat' split
    all_goals simp [FillOk, hj]

theorem moves_ok (hp : ValidPart n p) {i : Nat} (hi : inP n p i) (ds : List Dir) (st : FS) :
    (∀ a ∈ (movesLog G n p i ds st).2, FillOk n p a) ∧ ∀ j ∈ (movesLog G n p i ds st).1.2, inP n p j := by
  induction ds generalizing st with
  | nil => simp [movesLog]
  | cons d ds ih =>
    obtain ⟨a1, a2⟩ := move_ok (G := G) hp hi d st
    obtain ⟨b1, b2⟩ := ih (moveLog G n p i d st).1.1
    simp only [movesLog]
    refine ⟨fun a ha => ?_, fun j hj => ?_⟩
    · rcases List.mem_append.mp ha with h | h
      · exact a1 a h
      · exact b1 a h
    · rcases List.mem_append.mp hj with h | h
      · exact a2 j (by simpa using h)
      · exact b2 j h

theorem fill_ok (hp : ValidPart n p) (fuel : Nat) (stack : List Nat) (hs : ∀ i ∈ stack, inP n p i) (st : FS) :
    ∀ a ∈ (fillLog G n p fuel stack st).2, FillOk n p a := by
  induction fuel generalizing stack st with
  | zero => cases stack <;> simp [fillLog]
  | succ fuel ih =>
    cases stack with
    | nil => simp [fillLog]
    | cons i stack =>
      simp only [fillLog]
      obtain ⟨a1, a2⟩ := moves_ok (G := G) hp (hs i (by simp)) directions st
      intro a ha
      rcases List.mem_append.mp ha with h | h
      · exact a1 a h
      · refine ih _ (fun j hj => ?_) _ a h
        rcases List.mem_append.mp hj with h | h
        · exact a2 j (List.mem_reverse.mp h)
        · exact hs j (by simp [h])

theorem scanCell_ok (hp : ValidPart n p) (fuel : Nat) {i : Nat} (hi : inP n p i) (ps : PS) :
    ∀ a ∈ (scanCellLog G n p pi fuel i ps).2, FillOk n p a := by
  have hf := fill_ok (G := G) hp fuel [i] (by simpa using hi) ⟨i :: ps.visited, ps.trimmed, [i], 0⟩
  unfold scanCellLog
  split
  · simp [FillOk]
  · split
    · simp [FillOk, hi]
    · simp only
      split
      · intro a ha
        rcases List.mem_append.mp ha with h | h
        · clear ha; revert a; simp [FillOk]
        · exact hf a h
      · intro a ha
        rcases List.mem_append.mp ha with h | h
        · rcases List.mem_append.mp h with h' | h'
          · clear ha h; revert a; simp [FillOk]
          · exact hf a h'
        · clear ha; revert h; revert a; simp [FillOk]

theorem scan_ok (hp : ValidPart n p) (fuel : Nat) (is : List Nat) (hi : ∀ i ∈ is, inP n p i) (ps : PS) :
    ∀ a ∈ (scanLog G n p pi fuel is ps).2, FillOk n p a := by
  induction is generalizing ps with
  | nil => simp [scanLog]
  | cons i is ih =>
    have h1 := scanCell_ok (G := G) (pi := pi) hp fuel (hi i (by simp)) ps
    simp only [scanLog]
    split
    · exact h1
    · intro a ha
      rcases List.mem_append.mp ha with h | h
      · exact h1 a h
      · exact ih (fun j hj => hi j (by simp [hj])) _ a h

theorem partition_ok (hp : ValidPart n p) (fuel : Nat) (ps : PS) : ∀ a ∈ (partitionLog G n fuel pi p ps).2, FillOk n p a :=
  scan_ok hp fuel _ (fun i hi => (mem_partCells hp i).mp hi) _

/-- Accesses of two threads to partitions that share no cell do not conflict. -/
theorem fill_no_conflict {q : Partition} {t u : Nat} (htu : t ≠ u) (hpq : ∀ v, ¬ (InPart p v ∧ InPart q v)) {x y : Step} (hx : FillOk n p x) (hy : FillOk n q y) {i j : Nat}
    {a b : Access} (ha : a ∈ x.accesses t i) (hb : b ∈ y.accesses u j) : ¬ Conflict a b := by
  rintro ⟨hl, hw, hs⟩
  cases x <;> cases y <;> simp only [Step.accesses, rd, wr, crit, List.mem_cons, List.not_mem_nil, or_false] at ha hb <;> try grind
  case mark.mark k m =>
    subst ha hb
    simp only [Loc.state.injEq] at hl
    subst hl
    exact hpq _ ⟨hx, hy⟩

/-- **C109**, part: The flood fill: for all geometries, grids, numbers of threads and schedules, and whatever marks the threads have from partitions that they filled before, there is no
data race between the fills of the partitions. -/
theorem C109_fill_partial (G : Geo) (n : V3 Nat) (hn : NonEmptyGrid n) (threads : Nat) (ht : 0 < threads) (fuel : Nat) (old : Nat → List Nat) :
    RaceFree (partitions n threads).length (fillAccesses G n threads fuel old) := by
  rintro who ⟨i, hi, j, hj, hij, a, ha, b, hb, hc⟩
  obtain ⟨-, hv, -, hd⟩ := C10_partitions_tile n hn threads ht
  have hne : i ≠ j := fun h => hij (by rw [h])
  have e1 := List.getElem?_eq_getElem hi
  have e2 := List.getElem?_eq_getElem hj
  have key : ∀ (k : Nat) (hk : k < (partitions n threads).length) (t : Nat) (a : Access), a ∈ fillAccesses G n threads fuel old t k →
      ∃ x, FillOk n (partitions n threads)[k] x ∧ a ∈ x.accesses t k := by
    intro k hk t a ha
    unfold fillAccesses at ha
    rw [List.getElem?_eq_getElem hk] at ha
    rcases List.mem_cons.mp ha with rfl | h
    · exact ⟨.look, trivial, by simp [Step.accesses]⟩
    · obtain ⟨x, hx, hax⟩ := List.mem_flatMap.mp h
      exact ⟨x, partition_ok (hv _ (List.getElem_mem hk)) fuel _ x hx, hax⟩
  obtain ⟨x, hx, hax⟩ := key i hi _ a ha
  obtain ⟨y, hy, hby⟩ := key j hj _ b hb
  exact fill_no_conflict hij (hd i j _ _ e1 e2 hne) hx hy hax hby hc

/-! ## The other loops -/

/-- An access that iteration `g` of the merge may do. -/
def MergeOk (g : Nat) (a : Access) : Prop :=
  match a.loc with
  | .constant | .partition _ => a.write = false
  | .groupCells k | .groupCount k | .groupBox k | .groupBoundary k => k = g
  | _ => False

theorem cell_ok (G : Geo) (n : V3 Nat) (pd : Nat) (p : Partition) (g part : Nat) (b : Bnd) (i : Nat) : ∀ a ∈ cellAccesses G n pd p g part b i, MergeOk g a := by
  intro a ha
  unfold cellAccesses at ha
  simp only [List.mem_append] at ha
  rcases ha with (((((h | h) | h) | h) | h) | h) | h
  · revert a; simp [MergeOk, rd]
  · revert a; split
    · split <;> simp [MergeOk, wr]
    · simp
  · revert a; simp [MergeOk, rd]
  · revert a; split
    · split <;> simp [MergeOk, wr]
    · simp
  · revert a; simp [MergeOk, rd]
  · revert a; split <;> simp [MergeOk, rd, wr]
  · revert a; split <;> simp [MergeOk, rd, wr]

theorem cells_ok (G : Geo) (n : V3 Nat) (pd : Nat) (p : Partition) (g part : Nat) (cells : List Nat) (b : Bnd) (v : Int) :
    ∀ a ∈ (cellsLog G n pd p g part cells b v).2, MergeOk g a := by
  induction cells generalizing b v with
  | nil => simp [cellsLog]
  | cons i cells ih =>
    intro a ha
    simp only [cellsLog] at ha
    rcases List.mem_append.mp ha with h | h
    · rcases List.mem_cons.mp h with rfl | h
      · simp [MergeOk, rd]
      · exact cell_ok G n pd p g part b i a h
    · exact ih _ _ a h

/-- **C109**, part: Merging: no data race between the groups. -/
theorem C109_merge_partial (G : Geo) (n : V3 Nat) (pd : Nat) (parts : List Partition) (groups : List Group) :
    RaceFree groups.length fun _ g => mergeAccesses G n pd parts groups g := by
  have ok : ∀ g, ∀ a ∈ mergeAccesses G n pd parts groups g, MergeOk g a := by
    intro g a ha
    unfold mergeAccesses at ha
    split at ha
    · simp at ha
    · split at ha
      · rw [List.mem_singleton] at ha; subst ha; simp [MergeOk, rd]
      · rcases List.mem_cons.mp ha with rfl | h
        · simp [MergeOk, rd]
        · exact cells_ok _ _ _ _ _ _ _ _ _ a h
  rintro who ⟨i, hi, j, hj, hij, a, ha, b, hb, hl, hw, hs⟩
  have hne : i ≠ j := fun h => hij (by rw [h])
  have h1 := ok i a ha
  have h2 := ok j b hb
  unfold MergeOk at h1 h2
  rw [← hl] at h2
  revert h1 h2
  cases a.loc with
  | constant => intro h1 h2; simp_all
  | «partition» k => intro h1 h2; simp_all
  | groupCells k => intro h1 h2; exact hne (h1.symm.trans h2)
  | groupCount k => intro h1 h2; exact hne (h1.symm.trans h2)
  | groupBox k => intro h1 h2; exact hne (h1.symm.trans h2)
  | groupBoundary k => intro h1 h2; exact hne (h1.symm.trans h2)
  | _ => intro h1; exact h1.elim

/-- An access that the loop over the active cells may do. -/
def VolumeOk (a : Access) : Prop :=
  match a.loc with
  | .constant | .active _ | .state _ | .locked => a.write = false
  | .intersectionTime | .fittingTime => a.sync = .atomic
  | .idMap | .elements => a.sync = .critical
  | _ => False

/-- **C109**, part: The loop that makes the elements: no data race, in builds with and without assertions, for every state of the grid that an iteration can find. -/
theorem C109_volume_partial {K : Type _} (debug : Bool) (inp : Embedded.VolumeInput K) (s : Nat → BGrid.State (Embedded.Elem K)) :
    RaceFree (Embedded.tripCount (Embedded.activeIndices inp).length) fun _ k => volumeAccesses debug inp (s k) k := by
  have ok : ∀ k, ∀ a ∈ volumeAccesses debug inp (s k) k, VolumeOk a := by
    intro k a ha
    unfold volumeAccesses at ha
    split at ha
    · simp at ha
    · simp only [List.mem_append] at ha
      rcases ha with ((h | h) | h) | h
      · revert a; simp [VolumeOk, rd]
      · revert a; split <;> simp [VolumeOk, rd]
      · revert a; split
        · split <;> simp [VolumeOk]
        · simp
      · revert a; split
        · simp
        · split <;> simp [VolumeOk, crit]
  rintro who ⟨i, hi, j, hj, hij, a, ha, b, hb, hl, hw, hs⟩
  have h1 := ok i a ha
  have h2 := ok j b hb
  unfold VolumeOk at h1 h2
  rw [← hl] at h2
  revert h1 h2
  cases a.loc <;> intro h1 h2 <;> simp_all

/-- **C109**, part: The loop over all cells for a condition: no data race. -/
theorem C109_condition_partial (n : Nat) (nonempty : Nat → Bool) : RaceFree n (conditionAccesses nonempty) := by
  rintro who ⟨i, hi, j, hj, hij, a, ha, b, hb, hl, hw, hs⟩
  have ok : ∀ t i, ∀ a ∈ conditionAccesses nonempty t i,
      a.write = false ∧ (a.loc = .constant ∨ a.loc = .idMap ∨ a.loc = .elements) ∨ a.loc = .sum t ∨ a.loc = .segments ∧ a.sync = .critical := by
    intro t i a ha
    unfold conditionAccesses at ha
    rcases List.mem_cons.mp ha with rfl | h
    · simp [rd]
    · revert a; split <;> simp [rd, wr, crit]
  rcases ok _ _ a ha with ⟨w1, l1⟩ | l1 | ⟨l1, s1⟩ <;> rcases ok _ _ b hb with ⟨w2, l2⟩ | l2 | ⟨l2, s2⟩ <;> simp_all <;> grind

/-- **C109**, part: The sums over the triangles of a mesh: no data race. -/
theorem C109_sums_partial (n : Nat) : RaceFree n fun t _ => sumAccesses t := by
  rintro who ⟨i, hi, j, hj, hij, a, ha, b, hb, hl, hw, hs⟩
  simp only [sumAccesses, List.mem_cons, List.not_mem_nil, or_false, rd, wr] at ha hb
  rcases ha with rfl | rfl | rfl <;> rcases hb with rfl | rfl | rfl <;> simp_all

/-- **C109** is false of the code where it asks for the number of threads: all threads of the team assign to the same variable without synchronization, which is a data race as
soon as there are two threads. -/
theorem C109_false_of_code (team : Nat) (h : 2 ≤ team) : Race team (fun _ _ => teamSize) id :=
  ⟨0, by omega, 1, by omega, by simp, wr .numThreads, by simp [teamSize], wr .numThreads, by simp [teamSize], rfl, Or.inl rfl, by simp [wr]⟩

/-! ## Marks that a thread keeps -/

/-- State with older marks. -/
def withOld (V T : List Nat) (st : FS) : FS := { st with visited := st.visited ++ V, trimmed := st.trimmed ++ T }

/-- State of a partition with older marks and groups. -/
def withOldP (V T : List Nat) (gs : List Group) (ps : PS) : PS := ⟨ps.visited ++ V, ps.trimmed ++ T, gs ++ ps.groups⟩

section
variable {V T : List Nat} (hV : ∀ j ∈ V, ¬ inP n p j)
include hV

theorem move_old (hp : ValidPart n p) {i : Nat} (hi : inP n p i) (d : Dir) (st : FS) :
    move G n p i d (withOld V T st) = (withOld V T (move G n p i d st).1, (move G n p i d st).2) := by
  unfold move
  simp only
  split
  · rfl
  · rename_i h
    have hj : (next n p d i).1 ∉ V := fun hm => hV _ hm (next_mid hp hi (Decidable.not_not.mp h)).1
    split
    · rfl
    · simp only [withOld, List.mem_append, hj, or_false]
      split
      · rfl
      · split <;> rfl

theorem moves_old (hp : ValidPart n p) {i : Nat} (hi : inP n p i) (ds : List Dir) (st : FS) :
    moves G n p i ds (withOld V T st) = (withOld V T (moves G n p i ds st).1, (moves G n p i ds st).2) := by
  induction ds generalizing st with
  | nil => rfl
  | cons d ds ih => simp only [moves, move_old hV hp hi, ih]

theorem fillLoop_old (hp : ValidPart n p) (fuel : Nat) (stack : List Nat) (hs : ∀ i ∈ stack, inP n p i) (st : FS) :
    fillLoop G n p fuel stack (withOld V T st) = (fillLoop G n p fuel stack st).map (withOld V T) := by
  induction fuel generalizing stack st with
  | zero => cases stack <;> rfl
  | succ fuel ih =>
    cases stack with
    | nil => rfl
    | cons i stack =>
      simp only [fillLoop]
      rw [moves_old hV hp (hs i (by simp))]
      refine ih _ (fun j hj => ?_) _
      rcases List.mem_append.mp hj with h | h
      · refine (moves_ok (G := G) hp (hs i (by simp)) directions st).2 j ?_
        rw [movesLog_fst]
        exact List.mem_reverse.mp h
      · exact hs j (by simp [h])

theorem scanCell_old (hp : ValidPart n p) (fuel : Nat) (gs : List Group) {i : Nat} (hi : inP n p i) (ps : PS) :
    scanCell G n p pi fuel i (withOldP V T gs ps) = (scanCell G n p pi fuel i ps).map (withOldP V T gs) := by
  have hj : i ∉ V := fun hm => hV _ hm hi
  unfold scanCell
  simp only [withOldP, List.mem_append, hj, or_false]
  split
  · rfl
  · split
    · rfl
    · have := fillLoop_old (G := G) (T := T) hV hp fuel [i] (by simpa using hi) ⟨i :: ps.visited, ps.trimmed, [i], 0⟩
      simp only [withOld, List.cons_append] at this
      rw [this]
      cases fillLoop G n p fuel [i] ⟨i :: ps.visited, ps.trimmed, [i], 0⟩ with
      | none => rfl
      | some st => simp [withOldP, withOld]

theorem scan_old (hp : ValidPart n p) (fuel : Nat) (gs : List Group) (is : List Nat) (hi : ∀ i ∈ is, inP n p i) (ps : PS) :
    scan G n p pi fuel is (withOldP V T gs ps) = (scan G n p pi fuel is ps).map (withOldP V T gs) := by
  induction is generalizing ps with
  | nil => rfl
  | cons i is ih =>
    simp only [scan]
    rw [scanCell_old hV hp fuel gs (hi i (by simp)) ps]
    cases scanCell G n p pi fuel i ps with
    | none => rfl
    | some ps' => exact ih (fun j hj => hi j (by simp [hj])) ps'

end

/-- The cells that a scan marks lie in its partition. -/
theorem moves_visited (hp : ValidPart n p) {i : Nat} (hi : inP n p i) (ds : List Dir) (st : FS) (hst : ∀ j ∈ st.visited, inP n p j) :
    ∀ j ∈ (moves G n p i ds st).1.visited, inP n p j := by
  induction ds generalizing st with
  | nil => exact hst
  | cons d ds ih =>
    refine ih _ ?_
    unfold move
    simp only
    split
    · exact hst
    · rename_i h
      have hj := (next_mid hp hi (Decidable.not_not.mp h)).1
      repeat' split
      all_goals simp_all

theorem fillLoop_visited (hp : ValidPart n p) (fuel : Nat) (stack : List Nat) (hs : ∀ i ∈ stack, inP n p i) (st st' : FS) (hst : ∀ j ∈ st.visited, inP n p j)
    (e : fillLoop G n p fuel stack st = some st') : ∀ j ∈ st'.visited, inP n p j := by
  induction fuel generalizing stack st with
  | zero => cases stack <;> simp [fillLoop] at e; exact e ▸ hst
  | succ fuel ih =>
    cases stack with
    | nil => simp [fillLoop] at e; exact e ▸ hst
    | cons i stack =>
      have hi := hs i (by simp)
      refine ih _ (fun j hj => ?_) _ (moves_visited hp hi directions st hst) e
      rcases List.mem_append.mp hj with h | h
      · refine (moves_ok (G := G) hp hi directions st).2 j ?_
        rw [movesLog_fst]
        exact List.mem_reverse.mp h
      · exact hs j (by simp [h])

theorem scan_visited (hp : ValidPart n p) (fuel : Nat) (is : List Nat) (hi : ∀ i ∈ is, inP n p i) (ps ps' : PS) (hps : ∀ j ∈ ps.visited, inP n p j)
    (e : scan G n p pi fuel is ps = some ps') : ∀ j ∈ ps'.visited, inP n p j := by
  induction is generalizing ps with
  | nil => simp [scan] at e; exact e ▸ hps
  | cons i is ih =>
    simp only [scan] at e
    split at e
    · simp at e
    · rename_i ps1 e1
      refine ih (fun j hj => hi j (by simp [hj])) ps1 ?_ e
      have hii := hi i (by simp)
      unfold scanCell at e1
      split at e1
      · cases e1; exact hps
      · split at e1
        · cases e1; simpa using ⟨hii, hps⟩
        · split at e1
          · simp at e1
          · rename_i st e2
            cases e1
            exact fillLoop_visited hp fuel [i] (by simpa using hii) _ st (by simpa using ⟨hii, hps⟩) e2

theorem thread_old (fuel : Nat) (l : List (Nat × Partition)) (hv : ∀ q ∈ l, ValidPart n q.2) (hd : l.Pairwise fun q q' => ∀ v, ¬ (InPart q.2 v ∧ InPart q'.2 v))
    (r : Nat × Partition → PS) (hr : ∀ q ∈ l, fillPartition G n fuel q.1 q.2 = some (r q)) (ps : PS) (hps : ∀ q ∈ l, ∀ j ∈ ps.visited, ¬ inP n q.2 j) :
    ∃ ps', (fillThread G n fuel l ps).1 = some ps' ∧ ps'.groups = ps.groups ++ l.flatMap (fun q => (r q).groups) ∧
      ∀ j, j ∈ ps'.trimmed ↔ j ∈ ps.trimmed ∨ ∃ q ∈ l, j ∈ (r q).trimmed := by
  induction l generalizing ps with
  | nil => exact ⟨ps, rfl, by simp, by simp⟩
  | cons q l ih =>
    obtain ⟨pi, p⟩ := q
    have hp : ValidPart n p := hv (pi, p) (by simp)
    have hV := hps (pi, p) (by simp)
    have hc : ∀ i ∈ partCells n p, inP n p i := fun i hi => (mem_partCells hp i).mp hi
    have e1 := scan_old (G := G) (pi := pi) (T := ps.trimmed) hV hp fuel ps.groups (partCells n p) hc ⟨[], [], []⟩
    have e2 : scan G n p pi fuel (partCells n p) ⟨[], [], []⟩ = some (r (pi, p)) := hr (pi, p) (by simp)
    have e3 : withOldP ps.visited ps.trimmed ps.groups ⟨[], [], []⟩ = ps := by simp [withOldP]
    rw [e3, e2] at e1
    have h2 := scan_visited hp fuel (partCells n p) hc ⟨[], [], []⟩ _ (by simp) e2
    rw [List.pairwise_cons] at hd
    obtain ⟨ps', f1, f2, f3⟩ := ih (fun q hq => hv q (by simp [hq])) hd.2 (fun q hq => hr q (by simp [hq])) (withOldP ps.visited ps.trimmed ps.groups (r (pi, p))) (by
      intro q hq j hj hin
      rcases List.mem_append.mp hj with h | h
      · exact hd.1 q hq _ ⟨h2 j h, hin⟩
      · exact hps q (by simp [hq]) j h hin)
    refine ⟨ps', ?_, ?_, ?_⟩
    · simp only [fillThread, partitionLog, scanLog_fst]; rw [e1]; exact f1
    · rw [f2]; simp [withOldP]
    · intro j; rw [f3]; simp [withOldP]; grind

/-- **C13** A thread that fills several partitions keeps the marks of the earlier ones.  This changes nothing: whichever partitions a thread fills, in whichever order, it stores the
groups that each of them would give on its own, one after the other, and marks the same cells as cut. -/
theorem C13_reused_marks (G : Geo) (n : V3 Nat) (hn : NonEmptyGrid n) (threads : Nat) (ht : 0 < threads) (fuel : Nat) (hf : n.x * n.y * n.z ≤ fuel)
    (ks : List Nat) (hk : ks.Nodup) (part : Nat → Partition) (hpart : ∀ k ∈ ks, (partitions n threads)[k]? = some (part k)) :
    ∃ (alone : Nat → PS) (ps : PS), (∀ k ∈ ks, fillPartition G n fuel k (part k) = some (alone k)) ∧
      (fillThread G n fuel (ks.map fun k => (k, part k)) ⟨[], [], []⟩).1 = some ps ∧ ps.groups = ks.flatMap (fun k => (alone k).groups) ∧
      ∀ j, j ∈ ps.trimmed ↔ ∃ k ∈ ks, j ∈ (alone k).trimmed := by
  obtain ⟨-, hv, -, hd⟩ := C10_partitions_tile n hn threads ht
  have hvk : ∀ k ∈ ks, ValidPart n (part k) := fun k hk' => hv _ (List.mem_of_getElem? (hpart k hk'))
  have hex : ∀ k, ∃ ps, k ∈ ks → fillPartition G n fuel k (part k) = some ps := by
    intro k
    by_cases h : k ∈ ks
    · obtain ⟨ps, e, -⟩ := fillPartition_spec (G := G) (hvk k h) fuel k hf
      exact ⟨ps, fun _ => e⟩
    · exact ⟨⟨[], [], []⟩, fun h' => absurd h' h⟩
  choose alone halone using hex
  obtain ⟨ps, e1, e2, e3⟩ := thread_old (G := G) fuel (ks.map fun k => (k, part k)) (by simpa using hvk) (by
      rw [List.pairwise_map]
      refine (List.Pairwise.and_mem.mp hk).imp ?_
      rintro a b ⟨ha, hb, hab⟩
      exact hd a b _ _ (hpart a ha) (hpart b hb) hab) (fun q => alone q.1) (by simpa using halone) ⟨[], [], []⟩ (by simp)
  exact ⟨alone, ps, halone, e1, by rw [e2]; simp [List.flatMap_map], fun j => by rw [e3]; simp⟩

/-! ## Interleavings -/

/-- Cells that the steps mark, and groups that they store. -/
def marks (w : List Step) : List Nat := w.filterMap fun | .mark j => some j | _ => none
def pushes (w : List Step) : List Group := w.filterMap fun | .push g => some g | _ => none

theorem marks_append (v w : List Step) : marks (v ++ w) = marks v ++ marks w := by simp [marks]
theorem pushes_append (v w : List Step) : pushes (v ++ w) = pushes v ++ pushes w := by simp [pushes]

theorem move_steps (i : Nat) (d : Dir) (st : FS) : (moveLog G n p i d st).1.1.trimmed = (marks (moveLog G n p i d st).2).reverse ++ st.trimmed ∧ pushes (moveLog G n p i d st).2 = [] := by
  unfold moveLog
  simp only
  repeat' split
  all_goals simp [marks, pushes]

theorem moves_steps (i : Nat) (ds : List Dir) (st : FS) :
    (movesLog G n p i ds st).1.1.trimmed = (marks (movesLog G n p i ds st).2).reverse ++ st.trimmed ∧ pushes (movesLog G n p i ds st).2 = [] := by
  induction ds generalizing st with
  | nil => simp [movesLog, marks, pushes]
  | cons d ds ih =>
    obtain ⟨a, b⟩ := move_steps (G := G) (n := n) (p := p) i d st
    obtain ⟨a', b'⟩ := ih (moveLog G n p i d st).1.1
    simp only [movesLog, marks_append, pushes_append]
    rw [a', a, b, b']
    simp

theorem fill_steps (fuel : Nat) (stack : List Nat) (st st' : FS) (e : (fillLog G n p fuel stack st).1 = some st') :
    st'.trimmed = (marks (fillLog G n p fuel stack st).2).reverse ++ st.trimmed ∧ pushes (fillLog G n p fuel stack st).2 = [] := by
  induction fuel generalizing stack st with
  | zero =>
    cases stack with
    | nil => simp only [fillLog, Option.some.injEq] at e; subst e; simp [fillLog, marks, pushes]
    | cons i stack => simp [fillLog] at e
  | succ fuel ih =>
    cases stack with
    | nil => simp only [fillLog, Option.some.injEq] at e; subst e; simp [fillLog, marks, pushes]
    | cons i stack =>
      simp only [fillLog] at e ⊢
      obtain ⟨a, b⟩ := moves_steps (G := G) (n := n) (p := p) i directions st
      obtain ⟨a', b'⟩ := ih _ _ e
      rw [a', a, marks_append, pushes_append, b, b']
      simp

theorem scanCell_steps (fuel i : Nat) (ps ps' : PS) (e : (scanCellLog G n p pi fuel i ps).1 = some ps') :
    ps'.trimmed = (marks (scanCellLog G n p pi fuel i ps).2).reverse ++ ps.trimmed ∧ ps'.groups = ps.groups ++ pushes (scanCellLog G n p pi fuel i ps).2 := by
  unfold scanCellLog at e ⊢
  split at e
  · rename_i h; simp only [Option.some.injEq] at e; subst e; rw [if_pos h]; simp [marks, pushes]
  · rename_i h
    rw [if_neg h]
    split at e
    · rename_i h'; simp only [Option.some.injEq] at e; subst e; rw [if_pos h']; simp [marks, pushes]
    · rename_i h'
      rw [if_neg h']
      simp only at e ⊢
      split at e
      · simp at e
      · rename_i st e1
        simp only [Option.some.injEq] at e
        subst e
        obtain ⟨a, b⟩ := fill_steps _ _ _ _ e1
        simp only [marks_append, pushes_append, a, b]
        simp [marks, pushes]

theorem scan_steps (fuel : Nat) (is : List Nat) (ps ps' : PS) (e : (scanLog G n p pi fuel is ps).1 = some ps') :
    ps'.trimmed = (marks (scanLog G n p pi fuel is ps).2).reverse ++ ps.trimmed ∧ ps'.groups = ps.groups ++ pushes (scanLog G n p pi fuel is ps).2 := by
  induction is generalizing ps with
  | nil => simp only [scanLog, Option.some.injEq] at e; subst e; simp [scanLog, marks, pushes]
  | cons i is ih =>
    cases e1 : (scanCellLog G n p pi fuel i ps).1 with
    | none => simp [scanLog, e1] at e
    | some ps1 =>
      obtain ⟨a, b⟩ := scanCell_steps fuel i ps ps1 e1
      simp only [scanLog, e1] at e ⊢
      obtain ⟨a', b'⟩ := ih _ e
      rw [a', a, b', b, marks_append, pushes_append]
      simp

theorem thread_steps (fuel : Nat) (l : List (Nat × Partition)) (ps ps' : PS) (e : (fillThread G n fuel l ps).1 = some ps') :
    ps'.trimmed = (marks (fillThread G n fuel l ps).2).reverse ++ ps.trimmed ∧ ps'.groups = ps.groups ++ pushes (fillThread G n fuel l ps).2 := by
  induction l generalizing ps with
  | nil => simp only [fillThread, Option.some.injEq] at e; subst e; simp [fillThread, marks, pushes]
  | cons q l ih =>
    obtain ⟨pi, p⟩ := q
    cases e1 : (partitionLog G n fuel pi p ps).1 with
    | none => simp [fillThread, e1] at e
    | some ps1 =>
      obtain ⟨a, b⟩ := scan_steps fuel _ ps ps1 e1
      simp only [fillThread, e1] at e ⊢
      obtain ⟨a', b'⟩ := ih _ e
      rw [a', a, b', b, marks_append, pushes_append]
      simp [partitionLog]

theorem run_states (w : List Step) (m : Shared) (i : Nat) : (w.foldl Shared.step m).states i = if i ∈ marks w then .trimmed else m.states i := by
  induction w generalizing m with
  | nil => simp [marks]
  | cons x w ih =>
    rw [List.foldl_cons, ih]
    cases x with
    | mark j =>
      rw [show marks (.mark j :: w) = j :: marks w from rfl]
      by_cases h1 : i ∈ marks w <;> by_cases h2 : i = j <;> simp [Shared.step, h1, h2]
    | look => rfl
    | test => rfl
    | tick => rfl
    | push g => rfl

theorem run_groups (w : List Step) (m : Shared) : (w.foldl Shared.step m).groups = m.groups ++ pushes w := by
  induction w generalizing m with
  | nil => simp [pushes]
  | cons x w ih =>
    rw [List.foldl_cons, ih]
    cases x <;> simp [Shared.step, pushes]

/-- An interleaving is a rearrangement. -/
theorem interleaving_perm {α : Type _} {ls : List (List α)} {w : List α} (h : Interleaving ls w) : w.Perm ls.flatten := by
  induction h with
  | done h => rw [List.flatten_eq_nil_iff.mpr h]
  | @step ls x l w i hi _ ih =>
    obtain ⟨hlt, e⟩ := List.getElem?_eq_some_iff.mp hi
    have e1 : ls = ls.take i ++ (x :: l) :: ls.drop (i + 1) := by rw [← e, ← List.drop_eq_getElem_cons hlt, List.take_append_drop]
    have e2 : ls.set i l = ls.take i ++ l :: ls.drop (i + 1) := List.set_eq_take_append_cons_drop .. |>.trans (by rw [if_pos hlt])
    rw [e2, List.flatten_append, List.flatten_cons] at ih
    rw [e1, List.flatten_append, List.flatten_cons, List.cons_append]
    exact ((ih.cons x).trans List.perm_middle.symm)

theorem fillAll_get {fuel : Nat} (l : List Partition) (k : Nat) (rs : List PS) (e : fillAll G n fuel k l = some rs) :
    rs.length = l.length ∧ ∀ (i : Nat) (p : Partition) (r : PS), l[i]? = some p → rs[i]? = some r → fillPartition G n fuel (k + i) p = some r := by
  induction l generalizing k rs with
  | nil => simp only [fillAll, Option.some.injEq] at e; subst e; simp
  | cons p l ih =>
    simp only [fillAll] at e
    split at e
    · rename_i r rs' e1 e2
      simp only [Option.some.injEq] at e
      subst e
      obtain ⟨h1, h2⟩ := ih _ _ e2
      refine ⟨by simp [h1], fun i q r' hq hr => ?_⟩
      cases i with
      | zero => simp at hq hr; subst hq hr; exact e1
      | succ i =>
        have := h2 i q r' (by simpa using hq) (by simpa using hr)
        rwa [Nat.add_assoc, Nat.add_comm 1 i] at this
    · simp at e

/-- **C13** The threads run at the same time.  However the partitions are distributed to threads, and however the steps of the threads are interleaved, the classification of every
cell is the same as without threads running at the same time. -/
theorem C13_interleavings (G : Geo) (n : V3 Nat) (hn : NonEmptyGrid n) (threads : Nat) (ht : 0 < threads) (fuel : Nat) (hf : n.x * n.y * n.z ≤ fuel)
    (work : List (List Nat)) (hw : work.flatten.Perm (List.range (partitions n threads).length)) (part : Nat → Partition)
    (hpart : ∀ k < (partitions n threads).length, (partitions n threads)[k]? = some (part k)) (w : List Step)
    (hi : Interleaving (work.map fun ks => (fillThread G n fuel (ks.map fun k => (k, part k)) ⟨[], [], []⟩).2) w) :
    ∃ final ms st, finish G n threads fuel (w.foldl Shared.step Shared.init) = some final ∧ classify G n threads id fuel = some (ms, st) ∧
      ∀ i, IsCell n i → final i = st i := by
  obtain ⟨rs, ms0, st0, hcl, hall, -, -⟩ := classify_spec (G := G) (show InGrid n ⟨0, 0, 0⟩ from hn) ht (sched := id) (fun _ => List.Perm.refl _) hf
  obtain ⟨hlen, hget⟩ := fillAll_get _ _ _ hall
  have hmem : ∀ ks ∈ work, ∀ k ∈ ks, k < (partitions n threads).length := by
    intro ks hks k hk
    exact List.mem_range.mp (hw.mem_iff.mp (List.mem_flatten.mpr ⟨ks, hks, hk⟩))
  have hnd : ∀ ks ∈ work, ks.Nodup := by
    intro ks hks
    have h1 : work.flatten.Nodup := hw.nodup_iff.mpr List.nodup_range
    exact (List.nodup_flatten.mp h1).1 ks hks
  -- the result of a partition
  let res : Nat → PS := fun k => (rs[k]?).getD ⟨[], [], []⟩
  have hres : ∀ k < (partitions n threads).length, fillPartition G n fuel k (part k) = some (res k) := by
    intro k hk
    have hk' : k < rs.length := by rw [hlen]; exact hk
    have := hget k (part k) rs[k] (hpart k hk) (List.getElem?_eq_getElem hk')
    simpa [res, List.getElem?_eq_getElem hk'] using this
  have hthread : ∀ ks ∈ work, pushes (fillThread G n fuel (ks.map fun k => (k, part k)) ⟨[], [], []⟩).2 = ks.flatMap (fun k => (res k).groups) ∧
      ∀ j, j ∈ marks (fillThread G n fuel (ks.map fun k => (k, part k)) ⟨[], [], []⟩).2 ↔ ∃ k ∈ ks, j ∈ (res k).trimmed := by
    intro ks hks
    obtain ⟨alone, ps, a1, a2, a3, a4⟩ := C13_reused_marks G n hn threads ht fuel hf ks (hnd ks hks) part (fun k hk => hpart k (hmem ks hks k hk))
    have hal : ∀ k ∈ ks, alone k = res k := fun k hk => Option.some.inj ((a1 k hk).symm.trans (hres k (hmem ks hks k hk)))
    obtain ⟨b1, b2⟩ := thread_steps fuel _ _ _ a2
    simp only [List.append_nil, List.nil_append] at b1 b2
    refine ⟨?_, fun j => ?_⟩
    · rw [← b2, a3]
      exact List.flatMap_congr fun k hk => by rw [hal k hk]
    · rw [← List.mem_reverse, ← b1, a4]
      exact ⟨fun ⟨k, hk, h⟩ => ⟨k, hk, hal k hk ▸ h⟩, fun ⟨k, hk, h⟩ => ⟨k, hk, (hal k hk).symm ▸ h⟩⟩
  have hperm := interleaving_perm hi
  have hrs : rs = (List.range (partitions n threads).length).map res := by
    apply List.ext_getElem
    · simp [hlen]
    · intro k h1 h2
      simp [res, List.getElem?_eq_getElem h1]
  -- the groups
  have hgroups : (pushes w).Perm (rs.flatMap (·.groups)) := by
    have e1 : (pushes w).Perm (pushes (work.map fun ks => (fillThread G n fuel (ks.map fun k => (k, part k)) ⟨[], [], []⟩).2).flatten) := hperm.filterMap _
    have e2 : pushes (work.map fun ks => (fillThread G n fuel (ks.map fun k => (k, part k)) ⟨[], [], []⟩).2).flatten = work.flatten.flatMap (fun k => (res k).groups) := by
      have : ∀ (wk : List (List Nat)), (∀ ks ∈ wk, ks ∈ work) →
          pushes (wk.map fun ks => (fillThread G n fuel (ks.map fun k => (k, part k)) ⟨[], [], []⟩).2).flatten = wk.flatten.flatMap (fun k => (res k).groups) := by
        intro wk hwk
        induction wk with
        | nil => rfl
        | cons ks wk ih =>
          rw [List.map_cons, List.flatten_cons, pushes_append, (hthread ks (hwk ks (by simp))).1, ih (fun k hk => hwk k (by simp [hk])), List.flatten_cons, List.flatMap_append]
      exact this work fun _ h => h
    rw [hrs, List.flatMap_map]
    exact (e1.trans (List.Perm.of_eq e2)).trans (hw.flatMap_right _)
  -- the marks
  have hmarks : ∀ j, j ∈ marks w ↔ j ∈ rs.flatMap (·.trimmed) := by
    intro j
    have e1 : (marks w).Perm (marks (work.map fun ks => (fillThread G n fuel (ks.map fun k => (k, part k)) ⟨[], [], []⟩).2).flatten) := hperm.filterMap _
    have e2 : ∀ (wk : List (List Nat)), (∀ ks ∈ wk, ks ∈ work) →
        (j ∈ marks (wk.map fun ks => (fillThread G n fuel (ks.map fun k => (k, part k)) ⟨[], [], []⟩).2).flatten ↔ ∃ k ∈ wk.flatten, j ∈ (res k).trimmed) := by
      intro wk hwk
      induction wk with
      | nil => simp [marks]
      | cons ks wk ih =>
        rw [List.map_cons, List.flatten_cons, marks_append, List.mem_append, (hthread ks (hwk ks (by simp))).2 j, ih (fun k hk => hwk k (by simp [hk])), List.flatten_cons]
        simp only [List.mem_append]
        grind
    rw [e1.mem_iff, e2 work fun _ h => h, hrs, List.flatMap_map, List.mem_flatMap]
    exact ⟨fun ⟨k, hk, h⟩ => ⟨k, hw.mem_iff.mp hk, h⟩, fun ⟨k, hk, h⟩ => ⟨k, hw.mem_iff.mpr hk, h⟩⟩
  -- the schedule that this interleaving amounts to
  let s : List Group → List Group := fun l => if l = rs.flatMap (·.groups) then pushes w else l
  have hs : IsSchedule s := by
    intro l
    by_cases h : l = rs.flatMap (·.groups)
    · simp only [s, if_pos h]; rw [h]; exact hgroups
    · simp only [s, if_neg h]; exact List.Perm.refl _
  obtain ⟨ms, st, ms', st', c1, c2, c3⟩ := C13_schedule_independent G n hn threads ht s id hs (fun _ => List.Perm.refl _) fuel hf
  unfold classify at c1
  rw [hall] at c1
  simp only at c1
  have es : s (rs.flatMap (·.groups)) = pushes w := if_pos rfl
  rw [es] at c1
  split at c1
  · simp at c1
  · rename_i ms1 e1
    simp only [Option.some.injEq, Prod.mk.injEq] at c1
    obtain ⟨rfl, rfl⟩ := c1
    refine ⟨_, ms', st', ?_, c2, c3⟩
    unfold finish
    rw [run_groups]
    simp only [Shared.init, List.nil_append]
    rw [e1]
    simp only [Option.map_some, Option.some.injEq]
    funext i
    rw [run_states]
    unfold finalState
    simp only [hmarks]

/-! ## Examples -/

/-- Geometry of the example: cell 1 is cut. -/
def exGeo : Geo := ⟨fun i => decide (i = 1), fun j _ => decide (j = 1), fun _ _ _ => -1⟩

/-- A grid of 4 x 1 x 1 cells on two threads: both partitions mark cells and store groups. -/
example : wr (.state 1) ∈ fillAccesses exGeo ⟨4, 1, 1⟩ 2 10 (fun _ => []) 0 0 ∧ crit .groups ⊆ fillAccesses exGeo ⟨4, 1, 1⟩ 2 10 (fun _ => []) 0 0 ∧
    crit .groups ⊆ fillAccesses exGeo ⟨4, 1, 1⟩ 2 10 (fun _ => []) 1 1 ∧ (partitions ⟨4, 1, 1⟩ 2).length = 2 := by decide +kernel

/-- Partitions that share a cell would have a race: both mark it. -/
example : Step.mark 1 ∈ (partitionLog exGeo ⟨4, 1, 1⟩ 10 0 ⟨⟨0, 0, 0⟩, ⟨1, 0, 0⟩⟩ ⟨[], [], []⟩).2 ∧ Step.mark 1 ∈ (partitionLog exGeo ⟨4, 1, 1⟩ 10 1 ⟨⟨1, 0, 0⟩, ⟨3, 0, 0⟩⟩ ⟨[], [], []⟩).2 ∧
    Conflict (wr (.state 1)) (wr (.state 1)) := ⟨by decide +kernel, by decide +kernel, rfl, Or.inl rfl, by simp [wr]⟩

/-- One thread fills both partitions, the second one first: two groups, and one cell that is cut. -/
example : (fillThread exGeo ⟨4, 1, 1⟩ 10 [(1, ⟨⟨2, 0, 0⟩, ⟨3, 0, 0⟩⟩), (0, ⟨⟨0, 0, 0⟩, ⟨1, 0, 0⟩⟩)] ⟨[], [], []⟩).1.map (fun ps => (ps.groups.map (·.cells), ps.trimmed)) =
    some ([[3, 2], [0]], [1]) := by decide +kernel

/-- The steps of two threads that fill one partition each, in one order that switches between them: the first thread marks the cell 1 after the second one has stored its group. -/
example : let a := (fillThread exGeo ⟨4, 1, 1⟩ 10 [(0, ⟨⟨0, 0, 0⟩, ⟨1, 0, 0⟩⟩)] ⟨[], [], []⟩).2
    let b := (fillThread exGeo ⟨4, 1, 1⟩ 10 [(1, ⟨⟨2, 0, 0⟩, ⟨3, 0, 0⟩⟩)] ⟨[], [], []⟩).2
    let m := (a.take 5 ++ b ++ a.drop 5).foldl Shared.step Shared.init
    m.groups.map (·.cells) = [[3, 2], [0]] ∧ m.states 1 = .trimmed ∧ m.states 0 = .outside ∧ Step.mark 1 ∈ a.drop 5 := by decide +kernel

/-- Without the critical section the conditions would have a race. -/
example : Conflict (wr .segments) (wr .segments) ∧ crit .segments ⊆ conditionAccesses (fun _ => true) 0 0 := by
  refine ⟨⟨rfl, Or.inl rfl, by simp [wr]⟩, by decide +kernel⟩

end QuESo.Par
