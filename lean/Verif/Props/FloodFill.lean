import Verif.Proofs.FloodFillGeometry
import Verif.Proofs.FloodFillVotes
import Mathlib.Tactic.NormNum

/-!
# Properties C10 – C14 and C51: flood fill

`classify G n threads schedule fuel` is the whole classification.  `fuel` bounds the iterations of its two stack
loops; every theorem shows that the number of cells is enough, so the loops terminate.
-/
namespace QuESo.Props
open QuESo.Grid QuESo.Spec QuESo.Flood
variable {K : Type _} [Field K] [LinearOrder K] [IsStrictOrderedRing K]

/-- At least one cell in every direction. -/
abbrev NonEmptyGrid (n : V3 Nat) : Prop := 0 < n.x ∧ 0 < n.y ∧ 0 < n.z

/-! ## C10 Partitions -/

/-- For every thread count: at most one slab per thread, every slab is a non-empty block inside the grid, every cell
lies in a slab, and only in one. -/
theorem C10_partitions_tile (n : V3 Nat) (hn : NonEmptyGrid n) (threads : Nat) (ht : 0 < threads) :
    (partitions n threads).length ≤ threads ∧
    (∀ p ∈ partitions n threads, ValidPart n p) ∧
    (∀ v, InGrid n v → ∃ p ∈ partitions n threads, InPart p v) ∧
    (∀ (j k : Nat) (p q : Partition), (partitions n threads)[j]? = some p → (partitions n threads)[k]? = some q →
      j ≠ k → ∀ v, ¬ (InPart p v ∧ InPart q v)) := by
  have hn0 : InGrid n ⟨0, 0, 0⟩ := hn
  refine ⟨?_, ?_, ?_, ?_⟩
  · rw [partitions_eq n ht]; simpa using slabs_le n ht
  · intro p hp
    obtain ⟨k, hk⟩ := List.mem_iff_getElem?.1 hp
    obtain ⟨h1, rfl⟩ := (partitions_get n ht _ _).1 hk
    exact slab_valid k h1 hn0
  · intro v hv
    have hk := slab_cover (T := threads) v hv
    exact ⟨_, List.mem_iff_getElem?.2 ⟨_, (partitions_get n ht _ _).2 ⟨hk, rfl⟩⟩, (inPart_slab _ hk v hn0).2 ⟨hv, rfl⟩⟩
  · rintro j k p q hp hq hjk v ⟨h1, h2⟩
    obtain ⟨j1, rfl⟩ := (partitions_get n ht _ _).1 hp
    obtain ⟨k1, rfl⟩ := (partitions_get n ht _ _).1 hq
    exact hjk (((inPart_slab _ j1 v hn0).1 h1).2.symm.trans ((inPart_slab _ k1 v hn0).1 h2).2)

/-- Five cells and three threads: slabs of 2, 2 and 1 layers. -/
example : partitions ⟨2, 5, 3⟩ 3 = [⟨⟨0, 0, 0⟩, ⟨1, 1, 2⟩⟩, ⟨⟨0, 2, 0⟩, ⟨1, 3, 2⟩⟩, ⟨⟨0, 4, 0⟩, ⟨1, 4, 2⟩⟩] := by decide +kernel
/-- More threads than layers: no empty slabs. -/
example : partitions ⟨2, 1, 1⟩ 8 = [⟨⟨0, 0, 0⟩, ⟨0, 0, 0⟩⟩, ⟨⟨1, 0, 0⟩, ⟨1, 0, 0⟩⟩] := by decide +kernel

/-! ## C11 Trimmed cells -/

/-- For every geometry, thread count and schedule the classification finishes, and a cell is 'trimmed' exactly if
the geometry's test is true of the box of that cell. -/
theorem C11_trimmed_iff (isTrimmed : Box K → Bool) (onBounded : V3 K → Box K → Bool) (tol : K) (n : V3 Nat)
    (hn : NonEmptyGrid n) (dom : Box K) (threads : Nat) (ht : 0 < threads) (schedule : List Group → List Group)
    (hs : IsSchedule schedule) (fuel : Nat) (hf : n.x * n.y * n.z ≤ fuel) :
    ∃ ms st, classify (geoOf isTrimmed onBounded tol n dom) n threads schedule fuel = some (ms, st) ∧
      ∀ v, InGrid n v → (st (cellNo n v) = .trimmed ↔ isTrimmed (cellBox n dom v) = true) := by
  have hn0 : InGrid n ⟨0, 0, 0⟩ := hn
  obtain ⟨rs, ms, st, e, _, _, h⟩ :=
    classify_spec (G := geoOf isTrimmed onBounded tol n dom) hn0 ht hs hf
  refine ⟨ms, st, e, fun v hv => ?_⟩
  have hi : cellNo n v < numElements n := by rw [cellNo_eq]; exact toVec_lt n v hv
  have hb : (geoOf isTrimmed onBounded tol n dom).trim (cellNo n v) = isTrimmed (cellBox n dom v) := by
    simp only [geoOf, boxXYZ, cellNo_eq, toMat_toVec n v hv]
  constructor
  · intro hst
    by_contra hc
    rw [← hb] at hc
    have hc' : (geoOf isTrimmed onBounded tol n dom).trim (cellNo n v) = false := by simpa using hc
    obtain ⟨m, hm, hmi⟩ := List.mem_flatMap.1 ((h.ce _).2 ⟨hi, hc'⟩)
    have := h.st_in m hm _ hmi
    rw [hst] at this
    split at this <;> cases this
  · intro hT
    exact h.st_tr _ hi (hb.trans hT)

/-- A wall at x = 3/2 in a row of three unit cells; the bounded side is the left one. -/
def wall : Geo := geoOf (K := Rat) (fun b => decide (b.lower.x < 3 / 2 ∧ 3 / 2 < b.upper.x)) (fun p _ => decide (p.x < 3 / 2))
  (1 / 100) ⟨3, 1, 1⟩ ⟨⟨0, 0, 0⟩, ⟨3, 1, 1⟩⟩

/-- With two threads and the groups delivered in reverse order: inside, trimmed, outside. -/
example : (classify wall ⟨3, 1, 1⟩ 2 List.reverse 3).map (fun r => (List.range 3).map r.2) =
    some [.inside, .trimmed, .outside] := by decide +kernel
example {α : Type} : IsSchedule (List.reverse (α := α)) := fun l => List.reverse_perm l

/-! ## C12 Groups -/

/-- The groups contain every untrimmed cell exactly once and nothing else, and all cells of a group get the same
state, inside or outside. -/
theorem C12_groups (G : Geo) (n : V3 Nat) (hn : NonEmptyGrid n) (threads : Nat) (ht : 0 < threads)
    (schedule : List Group → List Group) (hs : IsSchedule schedule) (fuel : Nat) (hf : n.x * n.y * n.z ≤ fuel) :
    ∃ ms st, classify G n threads schedule fuel = some (ms, st) ∧
      (ms.flatMap (·.cells)).Nodup ∧
      (∀ i, i ∈ ms.flatMap (·.cells) ↔ IsCell n i ∧ G.trim i = false) ∧
      (∀ m ∈ ms, (∀ i ∈ m.cells, st i = .inside) ∨ (∀ i ∈ m.cells, st i = .outside)) := by
  have hn0 : InGrid n ⟨0, 0, 0⟩ := hn
  obtain ⟨rs, ms, st, e, _, _, h⟩ := classify_spec (G := G) hn0 ht hs hf
  refine ⟨ms, st, e, h.nd, h.ce, fun m hm => ?_⟩
  by_cases hc : m.count > 0
  · exact Or.inl fun i hi => by rw [h.st_in m hm i hi, if_pos hc]
  · exact Or.inr fun i hi => by rw [h.st_in m hm i hi, if_neg hc]

/-! ## C13 Independence of threads and schedule -/

/-- For a fixed number of threads the order in which the threads deliver their groups does not matter, whatever
the geometry answers. -/
theorem C13_schedule_independent (G : Geo) (n : V3 Nat) (hn : NonEmptyGrid n) (threads : Nat) (ht : 0 < threads)
    (s s' : List Group → List Group) (hs : IsSchedule s) (hs' : IsSchedule s') (fuel : Nat)
    (hf : n.x * n.y * n.z ≤ fuel) :
    ∃ ms st ms' st', classify G n threads s fuel = some (ms, st) ∧ classify G n threads s' fuel = some (ms', st') ∧
      ∀ i, IsCell n i → st i = st' i := by
  have hn0 : InGrid n ⟨0, 0, 0⟩ := hn
  obtain ⟨rs, ms, st, e, f, _, h⟩ := classify_spec (G := G) hn0 ht hs hf
  obtain ⟨rs', ms', st', e', f', _, h'⟩ := classify_spec (G := G) hn0 ht hs' hf
  refine ⟨ms, st, ms', st', e, e', fun i hi => ?_⟩
  rw [f] at f'
  obtain rfl := Option.some.inj f'
  exact schedule_indep h h' ((hs _).trans (hs' _).symm) i hi

/-- Any two numbers of threads and any two schedules give the same state to every cell, if the geometry answers
alike from both sides of every face between untrimmed cells.  Partial: for a geometry that does not, the claim is
false (`C13_false_of_code`). -/
theorem C13_threads_independent_partial (G : Geo) (n : V3 Nat) (hn : NonEmptyGrid n) (hsy : SameFromBothSides G n)
    (threads threads' : Nat) (ht : 0 < threads) (ht' : 0 < threads')
    (s s' : List Group → List Group) (hs : IsSchedule s) (hs' : IsSchedule s') (fuel fuel' : Nat)
    (hf : n.x * n.y * n.z ≤ fuel) (hf' : n.x * n.y * n.z ≤ fuel') :
    ∃ ms st ms' st', classify G n threads s fuel = some (ms, st) ∧ classify G n threads' s' fuel' = some (ms', st') ∧
      ∀ i, IsCell n i → st i = st' i := by
  have hn0 : InGrid n ⟨0, 0, 0⟩ := hn
  obtain ⟨rs, ms, st, e, _, g, h⟩ := classify_spec (G := G) hn0 ht hs hf
  obtain ⟨rs', ms', st', e', _, g', h'⟩ := classify_spec (G := G) hn0 ht' hs' hf'
  refine ⟨ms, st, ms', st', e, e', fun i hi => state_eq_of_cells h h' ?_ i hi⟩
  intro m hm m' hm' j hj hj' x
  rw [component hn0 ht hsy g h hm hj x, component hn0 ht' hsy g' h' hm' hj' x]

/-- The hypothesis holds for every geometry that tests boxes exactly (up to the relative snap tolerance, as the code
does), if no cell is thinner than the offset used at faces.  So for such a geometry the classification depends
neither on the number of threads nor on the schedule. -/
theorem C13_exact_geometry (S : V3 K → Prop) (t : K) (ht0 : 0 < t) (ht1 : t ≤ 1 / 10) (isTrimmed : Box K → Bool)
    (hE : ExactTrimTest S t isTrimmed) (onBounded : V3 K → Box K → Bool) (n : V3 Nat) (hn : NonEmptyGrid n) (dom : Box K)
    (hx : 10 * boxTolerance t (cellBox n dom ⟨0, 0, 0⟩) ≤ |dom.upper.x - dom.lower.x| / n.x)
    (hy : 10 * boxTolerance t (cellBox n dom ⟨0, 0, 0⟩) ≤ |dom.upper.y - dom.lower.y| / n.y)
    (hz : 10 * boxTolerance t (cellBox n dom ⟨0, 0, 0⟩) ≤ |dom.upper.z - dom.lower.z| / n.z)
    (threads threads' : Nat) (ht : 0 < threads) (ht' : 0 < threads')
    (s s' : List Group → List Group) (hs : IsSchedule s) (hs' : IsSchedule s') (fuel : Nat)
    (hf : n.x * n.y * n.z ≤ fuel) :
    ∃ ms st ms' st',
      classify (geoOf isTrimmed onBounded (offsetTol n dom t) n dom) n threads s fuel = some (ms, st) ∧
      classify (geoOf isTrimmed onBounded (offsetTol n dom t) n dom) n threads' s' fuel = some (ms', st') ∧
      ∀ i, IsCell n i → st i = st' i := by
  refine C13_threads_independent_partial _ n hn ?_ threads threads' ht ht' s s' hs hs' fuel fuel hf hf
  have hb : 10 * boxTolerance t (cellBox n dom ⟨0, 0, 0⟩) = offsetTol n dom t := by
    obtain ⟨d1, d2, d3⟩ := cell_delta (n := n) (dom := dom) ⟨0, 0, 0⟩
    unfold boxTolerance offsetTol
    rw [d1, d2, d3]
    rfl
  rw [hb] at hx hy hz
  exact same_from_both_sides onBounded hE ht0 ht1 hn hx hy hz

/-- A surface that consists of one point meets the hypotheses, with the tolerances of the code. -/
example : ∃ (S : V3 Rat → Prop) (isTrimmed : Box Rat → Bool), (∃ q, S q) ∧ ExactTrimTest S (1 / 10 ^ 12) isTrimmed ∧
    10 * boxTolerance (1 / 10 ^ 12 : Rat) (cellBox ⟨3, 1, 1⟩ ⟨⟨0, 0, 0⟩, ⟨3, 1, 1⟩⟩ ⟨0, 0, 0⟩) ≤ |3 - 0| / (3 : Nat) := by
  refine ⟨fun q => q = ⟨3 / 2, 1 / 2, 1 / 2⟩, fun b => decide (InShrunkBox (boxTolerance (1 / 10 ^ 12) b) b ⟨3 / 2, 1 / 2, 1 / 2⟩),
    ⟨_, rfl⟩, fun b => ?_, by decide +kernel⟩
  rw [decide_eq_true_iff]
  constructor
  · intro h; exact ⟨_, rfl, h⟩
  · rintro ⟨q, rfl, h⟩; exact h

theorem of_run {α β γ : Type _} {o : Option (α × β)} {f : α × β → γ} {c : γ} (h : o.map f = some c) :
    ∃ a b, o = some (a, b) ∧ f (a, b) = c := by
  cases o with
  | none => cases h
  | some r => exact ⟨r.1, r.2, rfl, Option.some.inj h⟩

/-- Two answers that disagree: seen from cell 1 there is no boundary towards cell 2, seen from cell 2 there is one. -/
def oneSided : Geo := ⟨fun _ => false, fun j d => decide (j = 1 ∧ d = .xb), fun _ _ _ => 1⟩

/-- One cell may get different states with one and with two threads: with one thread cell 2 joins the group of
cells 0 and 1 and votes 'inside' for all; with two threads cells 0 and 1 stay without a vote, hence outside. -/
theorem C13_false_of_code : ∃ (G : Geo) (n : V3 Nat), NonEmptyGrid n ∧
    ∃ ms st ms' st', classify G n 1 id (n.x * n.y * n.z) = some (ms, st) ∧
      classify G n 2 id (n.x * n.y * n.z) = some (ms', st') ∧ st 0 = .inside ∧ st' 0 = .outside := by
  refine ⟨oneSided, ⟨3, 1, 1⟩, by decide, ?_⟩
  obtain ⟨ms, st, e, h⟩ := of_run (c := St.inside) (f := fun r : List Group × (Nat → St) => r.2 0)
    (show (classify oneSided ⟨3, 1, 1⟩ 1 id (3 * 1 * 1)).map (fun r => r.2 0) = some .inside by decide +kernel)
  obtain ⟨ms', st', e', h'⟩ := of_run (c := St.outside) (f := fun r : List Group × (Nat → St) => r.2 0)
    (show (classify oneSided ⟨3, 1, 1⟩ 2 id (3 * 1 * 1)).map (fun r => r.2 0) = some .outside by decide +kernel)
  exact ⟨ms, st, ms', st', e, e', h, h'⟩

/-! ## C14 Connected cells -/

/-- Untrimmed face neighbours without a boundary between them get the same state. -/
theorem C14_connected_same_state (G : Geo) (n : V3 Nat) (hn : NonEmptyGrid n) (threads : Nat) (ht : 0 < threads)
    (schedule : List Group → List Group) (hs : IsSchedule schedule) (fuel : Nat) (hf : n.x * n.y * n.z ≤ fuel) :
    ∃ ms st, classify G n threads schedule fuel = some (ms, st) ∧
      ∀ i j, NoBoundaryBetween G n i j → st i = st j := by
  have hn0 : InGrid n ⟨0, 0, 0⟩ := hn
  obtain ⟨rs, ms, st, e, _, _, h⟩ := classify_spec (G := G) hn0 ht hs hf
  refine ⟨ms, st, e, fun i j hij => ?_⟩
  have ho := (noBoundary_iff hn0).1 hij
  obtain ⟨m, hm, hmi⟩ := List.mem_flatMap.1 ((h.ce i).2 ⟨ho.1, ho.2.2.1⟩)
  rw [h.st_in m hm i hmi, h.st_in m hm j (h.adj i j ho m hm hmi)]

/-- Cells 0 and 1 of a row of four cells with a wall in the last cell are such neighbours. -/
example : NoBoundaryBetween (geoOf (K := Rat) (fun b => decide (b.lower.x < 7 / 2 ∧ 7 / 2 < b.upper.x))
    (fun p _ => decide (p.x < 7 / 2)) (1 / 100) ⟨4, 1, 1⟩ ⟨⟨0, 0, 0⟩, ⟨4, 1, 1⟩⟩) ⟨4, 1, 1⟩ 0 1 :=
  ⟨by decide +kernel, by decide +kernel, .xf, .xb, ⟨⟨0, 0, 0⟩, ⟨1, 0, 0⟩, by decide, by decide, ⟨rfl, rfl, rfl⟩, rfl, rfl⟩,
    ⟨⟨1, 0, 0⟩, ⟨0, 0, 0⟩, by decide, by decide, ⟨rfl, rfl, rfl⟩, rfl, rfl⟩, by decide +kernel, by decide +kernel⟩

/-! ## C51 The majority decides -/

/-- A group is inside exactly if the votes over the faces of its cells have a positive sum, if no boundary is
reported at the cells of the first and last layer along the longest direction of the grid.  Partial: without that
condition the claim is false (`C51_false_of_code`). -/
theorem C51_majority_partial (G : Geo) (n : V3 Nat) (hn : NonEmptyGrid n)
    (hend : ∀ i d, IsCell n i → EndLayer n i → G.trimP i d = false) (threads : Nat) (ht : 0 < threads)
    (schedule : List Group → List Group) (hs : IsSchedule schedule) (fuel : Nat) (hf : n.x * n.y * n.z ≤ fuel) :
    ∃ ms st, classify G n threads schedule fuel = some (ms, st) ∧
      ∀ m ∈ ms, ∀ i ∈ m.cells, (st i = .inside ↔ 0 < faceVotes G n m.cells) := by
  have hn0 : InGrid n ⟨0, 0, 0⟩ := hn
  obtain ⟨rs, ms, st, e, _, _, h⟩ := classify_spec (G := G) hn0 ht hs hf
  refine ⟨ms, st, e, fun m hm i hi => ?_⟩
  rw [h.st_in m hm i hi, ← votes_face hn0 hend h hm]
  split
  · next hc => exact ⟨fun _ => hc, fun _ => rfl⟩
  · next hc => exact ⟨fun h => (by cases h), fun h => absurd h hc⟩

/-- The wall meets the condition; the group of cell 0 has a positive sum, that of cell 2 a negative one. -/
example : (∀ i d, IsCell ⟨3, 1, 1⟩ i → EndLayer ⟨3, 1, 1⟩ i → wall.trimP i d = false) ∧
    faceVotes wall ⟨3, 1, 1⟩ [0] = 1 ∧ faceVotes wall ⟨3, 1, 1⟩ [2] = -1 := by
  refine ⟨?_, by decide +kernel, by decide +kernel⟩
  intro i d hi he
  have hi' : i < 3 := hi
  have h1 : i ≠ 1 := by
    rintro rfl
    obtain ⟨a, ha, hm, hc⟩ := he
    have h0 : a = 0 := by
      have := hm 0 (by omega)
      rcases (show a = 0 ∨ a = 1 ∨ a = 2 by omega) with rfl | rfl | rfl
      · rfl
      · simp [V3.get] at this
      · simp [V3.get] at this
    subst h0
    simp [posOf, V3.get] at hc
  have : i = 0 ∨ i = 2 := by omega
  rcases this with rfl | rfl <;> cases d <;> decide +kernel

/-- Four unit cells, the surface a speck in cell (0, 1); the bounded side is y < 1. -/
def speck : Geo := geoOf (K := Rat)
  (fun b => decide (b.lower.x < 1 / 2 ∧ 1 / 2 < b.upper.x ∧ b.lower.y < 3 / 2 ∧ 3 / 2 < b.upper.y ∧ b.lower.z < 1 / 2 ∧ 1 / 2 < b.upper.z))
  (fun p _ => decide (p.y < 1)) (1 / 100) ⟨2, 2, 1⟩ ⟨⟨0, 0, 0⟩, ⟨2, 2, 1⟩⟩

/-- The untrimmed cells form one group with one vote for each side: the sum is 0, so it should be outside.  The code
marks it inside: cell 1 at the end of the first row steps on to cell 2 at the start of the second row, as if they
were neighbours, finds it cut, and casts a second vote. -/
theorem C51_false_of_code : ∃ (n : V3 Nat) (G : Geo), NonEmptyGrid n ∧ SameFromBothSides G n ∧
    ∃ ms st, classify G n 1 id (n.x * n.y * n.z) = some (ms, st) ∧
      ∃ m ∈ ms, ∃ i ∈ m.cells, st i = .inside ∧ ¬ 0 < faceVotes G n m.cells := by
  refine ⟨⟨2, 2, 1⟩, speck, by decide, ?_, ?_⟩
  · intro i j d e h1 h2
    have hi : i < 4 := ((faceNeighbour_iff (by decide)).1 h1).1
    have hj : j < 4 := ((faceNeighbour_iff (by decide)).1 h1).2.1
    rw [faceNeighbour_iff (by decide)] at h1 h2
    obtain rfl := neighbour_rev_unique h1.2.2 h2.2.2
    intro t1 t2
    have key : ∀ i < 4, ∀ j < 4, ∀ d ∈ directions, speck.trim i = false → speck.trim j = false →
        Neighbour d (toMat ⟨2, 2, 1⟩ i) (toMat ⟨2, 2, 1⟩ j) → speck.trimP j d = speck.trimP i (reverse d) := by decide +kernel
    exact key i hi j hj d (by cases d <;> decide) t1 t2 h1.2.2
  · obtain ⟨ms, st, e, h⟩ := of_run (c := (([⟨0, [3, 1, 0], 1⟩] : List Group), St.inside)) (f := fun r : List Group × (Nat → St) => (r.1, r.2 0))
      (show (classify speck ⟨2, 2, 1⟩ 1 id (2 * 2 * 1)).map (fun r => (r.1, r.2 0)) = some ([⟨0, [3, 1, 0], 1⟩], St.inside) by
        decide +kernel)
    simp only [Prod.mk.injEq] at h
    exact ⟨ms, st, e, ⟨0, [3, 1, 0], 1⟩, by rw [h.1]; simp, 0, by simp, h.2, by decide +kernel⟩

end QuESo.Props
