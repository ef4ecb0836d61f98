import Verif.Model.FloodFill
import Verif.Proofs.GridIndexer
import Mathlib.Logic.Relation
import Mathlib.Data.List.Nodup
import Mathlib.Data.List.Range
import Mathlib.Tactic.Ring
import Mathlib.Algebra.BigOperators.Group.List.Basic

/-! # Flood fill inside one partition -/
namespace QuESo.Flood
open QuESo.Grid QuESo.Spec

/-- cell `i` lies in partition `p` -/
def inP (n : V3 Nat) (p : Partition) (i : Nat) : Prop := InPart p (toMat n i)

theorem next_mid {n : V3 Nat} {p : Partition} (hp : ValidPart n p) {d : Dir} {i : Nat} (hi : inP n p i)
    (h : (next n p d i).2 = .middle) :
    inP n p (next n p d i).1 ∧ Neighbour d (toMat n i) (toMat n (next n p d i).1) := by
  rw [next_eq] at h ⊢
  have h1 := stepV_inPart hp d hi
  have h2 := stepV_middle d h
  simp only
  rw [inP, toMat_toVec n _ (inGrid_of_inPart hp h1)]
  exact ⟨h1, h2⟩

theorem next_of_neighbour {n : V3 Nat} {p : Partition} {d : Dir} {i j : Nat}
    (hi : inP n p i) (hj : inP n p j) (h : Neighbour d (toMat n i) (toMat n j)) :
    next n p d i = (j, .middle) := by
  have hm := (stepV_middle_iff d hi).2 ⟨_, hj, h⟩
  have h2 := stepV_middle d hm
  have e : (stepV p d (toMat n i)).1 = toMat n j := Neighbour.unique h2 h
  rw [next_eq, e, hm, toVec_toMat]

theorem inP_lt {n : V3 Nat} {p : Partition} (hp : ValidPart n p) {i : Nat} (hi : inP n p i) : i < numElements n := by
  have := toVec_lt n _ (inGrid_of_inPart hp hi)
  rwa [toVec_toMat] at this

/-- Votes of one cell against its cut neighbours inside the partition. -/
def dirVote (G : Geo) (n : V3 Nat) (p : Partition) (i : Nat) (d : Dir) : Int :=
  if (next n p d i).2 = .middle ∧ G.trimP (next n p d i).1 d = true then G.side i (next n p d i).1 d else 0

def voteIn (G : Geo) (n : V3 Nat) (p : Partition) (i : Nat) : Int := (directions.map (dirVote G n p i)).sum

/-- What holds of visited cells, trimmed marks and grouped cells throughout. -/
structure VInv (G : Geo) (n : V3 Nat) (p : Partition) (visited trimmed cells : List Nat) : Prop where
  vnd : visited.Nodup
  vin : ∀ x ∈ visited, inP n p x
  tr : ∀ x, x ∈ trimmed ↔ x ∈ visited ∧ G.trim x = true
  ce : ∀ x, x ∈ cells ↔ x ∈ visited ∧ G.trim x = false
  cnd : cells.Nodup

theorem VInv.addTrim {G n p v t c j} (h : VInv G n p v t c) (hj : j ∉ v) (hin : inP n p j) (ht : G.trim j = true) :
    VInv G n p (j :: v) (j :: t) c := by
  refine ⟨List.nodup_cons.2 ⟨hj, h.vnd⟩, ?_, ?_, ?_, h.cnd⟩
  · intro x hx
    rcases List.mem_cons.1 hx with rfl | hx
    · exact hin
    · exact h.vin x hx
  · intro x
    simp only [List.mem_cons, h.tr]
    constructor
    · rintro (rfl | ⟨h1, h2⟩)
      · exact ⟨Or.inl rfl, ht⟩
      · exact ⟨Or.inr h1, h2⟩
    · rintro ⟨rfl | h1, h2⟩
      · exact Or.inl rfl
      · exact Or.inr ⟨h1, h2⟩
  · intro x
    simp only [List.mem_cons, h.ce]
    constructor
    · rintro ⟨h1, h2⟩
      exact ⟨Or.inr h1, h2⟩
    · rintro ⟨rfl | h1, h2⟩
      · rw [ht] at h2; cases h2
      · exact ⟨h1, h2⟩

theorem VInv.addCell {G n p v t c j} (h : VInv G n p v t c) (hj : j ∉ v) (hin : inP n p j) (ht : G.trim j = false) :
    VInv G n p (j :: v) t (j :: c) := by
  refine ⟨List.nodup_cons.2 ⟨hj, h.vnd⟩, ?_, ?_, ?_, List.nodup_cons.2 ⟨?_, h.cnd⟩⟩
  · intro x hx
    rcases List.mem_cons.1 hx with rfl | hx
    · exact hin
    · exact h.vin x hx
  · intro x
    simp only [List.mem_cons, h.tr]
    constructor
    · rintro ⟨h1, h2⟩
      exact ⟨Or.inr h1, h2⟩
    · rintro ⟨rfl | h1, h2⟩
      · rw [ht] at h2; cases h2
      · exact ⟨h1, h2⟩
  · intro x
    simp only [List.mem_cons, h.ce]
    constructor
    · rintro (rfl | ⟨h1, h2⟩)
      · exact ⟨Or.inl rfl, ht⟩
      · exact ⟨Or.inr h1, h2⟩
    · rintro ⟨rfl | h1, h2⟩
      · exact Or.inl rfl
      · exact Or.inr ⟨h1, h2⟩
  · intro hc
    exact hj ((h.ce j).1 hc).1

/-- An open step from `i` to an untrimmed cell of the partition. -/
def Open (G : Geo) (n : V3 Nat) (p : Partition) (i j : Nat) : Prop :=
  ∃ d, next n p d i = (j, .middle) ∧ G.trimP j d = false ∧ G.trim j = false

structure MovesSpec (G : Geo) (n : V3 Nat) (p : Partition) (i : Nat) (done : List Nat) (ds : List Dir) (st st' : FS)
    (news : List Nat) : Prop where
  inv : VInv G n p st'.visited st'.trimmed (st'.cells ++ done)
  cells : st'.cells = news.reverse ++ st.cells
  mono : ∀ x ∈ st.visited, x ∈ st'.visited
  len : st.visited.length + news.length ≤ st'.visited.length
  closed : ∀ d ∈ ds, (next n p d i).2 = .middle → G.trimP (next n p d i).1 d = false → (next n p d i).1 ∈ st'.visited
  opens : ∀ j ∈ news, Open G n p i j
  count : st'.count = st.count + (ds.map (dirVote G n p i)).sum

theorem move_spec {G n p} (hp : ValidPart n p) {i : Nat} (hi : inP n p i) (done : List Nat) (d : Dir) (st : FS)
    (h : VInv G n p st.visited st.trimmed (st.cells ++ done)) :
    MovesSpec G n p i done [d] st (move G n p i d st).1 (move G n p i d st).2.toList := by
  unfold move
  simp only
  by_cases hm : (next n p d i).2 = .middle
  swap
  · rw [if_pos hm]
    exact ⟨h, by simp, fun x hx => hx, by simp, by simp [hm], by simp, by simp [dirVote, hm]⟩
  rw [if_neg (by simpa using hm)]
  obtain ⟨hin, _⟩ := next_mid hp hi hm
  by_cases hP : G.trimP (next n p d i).1 d = true
  · rw [if_pos hP]
    exact ⟨h, by simp, fun x hx => hx, by simp, by simp [hP], by simp, by simp [dirVote, hm, hP]⟩
  rw [if_neg hP]
  by_cases hv : (next n p d i).1 ∈ st.visited
  · rw [if_pos hv]
    exact ⟨h, by simp, fun x hx => hx, by simp, by simp [hv], by simp, by simp [dirVote, hP]⟩
  rw [if_neg hv]
  by_cases ht : G.trim (next n p d i).1 = true
  · rw [if_pos ht]
    refine ⟨h.addTrim hv hin ht, by simp, fun x hx => List.mem_cons_of_mem _ hx, by simp, by simp, by simp, by simp [dirVote, hP]⟩
  · rw [if_neg ht]
    have ht' : G.trim (next n p d i).1 = false := by simpa using ht
    refine ⟨h.addCell hv hin ht', by simp, fun x hx => List.mem_cons_of_mem _ hx, by simp, by simp, ?_, by simp [dirVote, hP]⟩
    intro j hj
    simp at hj
    subst hj
    exact ⟨d, by rw [← hm], by simpa using hP, ht'⟩

theorem moves_spec {G n p} (hp : ValidPart n p) {i : Nat} (hi : inP n p i) (done : List Nat) (ds : List Dir) (st : FS)
    (h : VInv G n p st.visited st.trimmed (st.cells ++ done)) :
    MovesSpec G n p i done ds st (moves G n p i ds st).1 (moves G n p i ds st).2 := by
  induction ds generalizing st with
  | nil => exact ⟨h, by simp [moves], fun x hx => hx, by simp [moves], by simp, by simp [moves], by simp [moves]⟩
  | cons d ds ih =>
    have h1 := move_spec hp hi done d st h
    have h2 := ih (move G n p i d st).1 h1.inv
    refine ⟨h2.inv, ?_, fun x hx => h2.mono x (h1.mono x hx), ?_, ?_, ?_, ?_⟩
    · simp only [moves]
      rw [h2.cells, h1.cells]
      simp
    · have a := h1.len
      have b := h2.len
      simp only [moves, List.length_append]
      omega
    · intro e he hm hP
      rcases List.mem_cons.1 he with rfl | he
      · exact h2.mono _ (h1.closed _ (by simp) hm hP)
      · exact h2.closed e he hm hP
    · intro j hj
      simp only [moves, List.mem_append] at hj
      rcases hj with hj | hj
      · exact h1.opens j hj
      · exact h2.opens j hj
    · simp only [moves]
      rw [h2.count, h1.count]
      simp
      ring

/-- All open steps out of `i` lead to visited cells. -/
def Closed (G : Geo) (n : V3 Nat) (p : Partition) (visited : List Nat) (i : Nat) : Prop :=
  ∀ d, (next n p d i).2 = .middle → G.trimP (next n p d i).1 d = false → (next n p d i).1 ∈ visited

theorem mem_directions (d : Dir) : d ∈ directions := by cases d <;> simp [directions]

theorem length_le_num {n : V3 Nat} {p : Partition} (hp : ValidPart n p) {v : List Nat} (hn : v.Nodup)
    (hv : ∀ x ∈ v, inP n p x) : v.length ≤ numElements n := by
  have : v ⊆ List.range (numElements n) := fun x hx => List.mem_range.2 (inP_lt hp (hv x hx))
  simpa using (List.subperm_of_subset hn this).length_le

theorem fillLoop_spec {G n p} (hp : ValidPart n p) (root : Nat) (done : List Nat) (fuel : Nat) :
    ∀ (stack proc : List Nat) (st : FS),
    VInv G n p st.visited st.trimmed (st.cells ++ done) →
    st.cells.Perm (stack ++ proc) →
    st.count = (proc.map (voteIn G n p)).sum →
    (∀ i ∈ proc, Closed G n p st.visited i) →
    (∀ i ∈ st.cells, Relation.ReflTransGen (Open G n p) root i) →
    stack.length + (numElements n - st.visited.length) ≤ fuel →
    ∃ st', fillLoop G n p fuel stack st = some st' ∧
      VInv G n p st'.visited st'.trimmed (st'.cells ++ done) ∧
      st'.count = (st'.cells.map (voteIn G n p)).sum ∧
      (∀ i ∈ st'.cells, Closed G n p st'.visited i) ∧
      (∀ i ∈ st'.cells, Relation.ReflTransGen (Open G n p) root i) ∧
      (∀ x ∈ st.visited, x ∈ st'.visited) ∧ (∀ x ∈ st.cells, x ∈ st'.cells) := by
  induction fuel with
  | zero =>
    intro stack proc st hI hperm hc hcl hr hf
    have : stack = [] := List.length_eq_zero_iff.1 (by omega)
    subst this
    simp only [List.nil_append] at hperm
    refine ⟨st, rfl, hI, ?_, ?_, hr, fun x hx => hx, fun x hx => hx⟩
    · rw [hc]; exact ((hperm.map _).sum_eq).symm
    · exact fun i hi => hcl i (hperm.mem_iff.1 hi)
  | succ fuel ih =>
    intro stack proc st hI hperm hc hcl hr hf
    cases stack with
    | nil =>
      simp only [List.nil_append] at hperm
      refine ⟨st, rfl, hI, ?_, ?_, hr, fun x hx => hx, fun x hx => hx⟩
      · rw [hc]; exact ((hperm.map _).sum_eq).symm
      · exact fun i hi => hcl i (hperm.mem_iff.1 hi)
    | cons i stack =>
      have hic : i ∈ st.cells := hperm.mem_iff.2 (by simp)
      have hiv : i ∈ st.visited := ((hI.ce i).1 (List.mem_append_left _ hic)).1
      have hip : inP n p i := hI.vin i hiv
      have hs := moves_spec hp hip done directions st hI
      have hl := length_le_num hp hs.inv.vnd hs.inv.vin
      obtain ⟨st', e, h1, h2, h3, h4, h5, h6⟩ := ih ((moves G n p i directions st).2.reverse ++ stack) (i :: proc)
        (moves G n p i directions st).1 hs.inv
        (by
          rw [hs.cells, List.append_assoc]
          refine List.Perm.append_left _ (hperm.trans ?_)
          simp only [List.cons_append]
          exact (List.perm_middle).symm)
        (by
          rw [hs.count, hc]
          simp [voteIn]
          ring)
        (by
          intro j hj d hm hP
          rcases List.mem_cons.1 hj with rfl | hj
          · exact hs.closed d (mem_directions d) hm hP
          · exact hs.mono _ (hcl j hj d hm hP))
        (by
          intro j hj
          rw [hs.cells] at hj
          rcases List.mem_append.1 hj with hj | hj
          · exact (hr i hic).tail (hs.opens j (List.mem_reverse.1 hj))
          · exact hr j hj)
        (by
          have := hs.len
          simp only [List.length_append, List.length_reverse, List.length_cons] at *
          omega)
      refine ⟨st', e, h1, h2, h3, h4, fun x hx => h5 x (hs.mono x hx), fun x hx => h6 x ?_⟩
      rw [hs.cells]
      exact List.mem_append_right _ hx

/-- Facts about one finished group of a partition. -/
structure GroupOK (G : Geo) (n : V3 Nat) (p : Partition) (pi : Nat) (g : Group) : Prop where
  part : g.part = pi
  count : g.count = (g.cells.map (voteIn G n p)).sum
  conn : ∃ root ∈ g.cells, ∀ i ∈ g.cells, Relation.ReflTransGen (Open G n p) root i

def allCells (gs : List Group) : List Nat := gs.flatMap (·.cells)

structure SInv (G : Geo) (n : V3 Nat) (p : Partition) (pi : Nat) (ps : PS) : Prop where
  inv : VInv G n p ps.visited ps.trimmed (allCells ps.groups)
  ok : ∀ g ∈ ps.groups, GroupOK G n p pi g
  pre : ∀ pre g post, ps.groups = pre ++ g :: post → ∀ i ∈ g.cells, ∀ d j, next n p d i = (j, .middle) →
    G.trimP j d = false → j ∈ ps.visited ∧ (G.trim j = false → j ∈ allCells (pre ++ [g]))

theorem VInv.perm {G n p v t c c'} (h : VInv G n p v t c) (hp : c.Perm c') : VInv G n p v t c' :=
  ⟨h.vnd, h.vin, h.tr, fun x => (hp.mem_iff (a := x)).symm.trans (h.ce x), hp.nodup_iff.1 h.cnd⟩

theorem scanCell_spec {G n p} (hp : ValidPart n p) (pi fuel i : Nat) (hi : inP n p i) (ps : PS)
    (h : SInv G n p pi ps) (hf : numElements n ≤ fuel) :
    ∃ ps', scanCell G n p pi fuel i ps = some ps' ∧ SInv G n p pi ps' ∧ i ∈ ps'.visited ∧
      (∀ x ∈ ps.visited, x ∈ ps'.visited) := by
  unfold scanCell
  by_cases hv : i ∈ ps.visited
  · exact ⟨ps, by rw [if_pos hv], h, hv, fun x hx => hx⟩
  rw [if_neg hv]
  by_cases ht : G.trim i = true
  · rw [if_pos ht]
    refine ⟨_, rfl, ⟨h.inv.addTrim hv hi ht, h.ok, ?_⟩, by simp, fun x hx => List.mem_cons_of_mem _ hx⟩
    intro pre g post e j hj d k hk hP
    obtain ⟨a, b⟩ := h.pre pre g post e j hj d k hk hP
    exact ⟨List.mem_cons_of_mem _ a, b⟩
  rw [if_neg ht]
  have ht' : G.trim i = false := by simpa using ht
  have hI := h.inv.addCell hv hi ht'
  have hl := length_le_num hp hI.vnd hI.vin
  obtain ⟨st', e, h1, h2, h3, h4, h5, h6⟩ := fillLoop_spec hp i (allCells ps.groups) fuel [i] []
    ⟨i :: ps.visited, ps.trimmed, [i], 0⟩ hI (by simp) (by simp) (by simp)
    (by intro j hj; simp at hj; subst hj; exact .refl) (by simp only [List.length_cons, List.length_nil] at *; omega)
  rw [e]
  refine ⟨_, rfl, ⟨h1.perm ?_, ?_, ?_⟩, h5 i (by simp), fun x hx => h5 x (by simp [hx])⟩
  · simp only [allCells, List.flatMap_append, List.flatMap_cons, List.flatMap_nil, List.append_nil]
    exact List.perm_append_comm
  · intro g hg
    simp only [List.mem_append, List.mem_singleton] at hg
    rcases hg with hg | rfl
    · exact h.ok g hg
    · exact ⟨rfl, h2, i, h6 i (by simp), h4⟩
  · intro pre g post e j hj d k hk hP
    simp only at e
    rcases List.eq_nil_or_concat post with rfl | ⟨post', x, rfl⟩
    · obtain ⟨rfl, e2⟩ := List.append_inj' e (by simp)
      simp only [List.cons.injEq, and_true] at e2
      subst e2
      have hv' : k ∈ st'.visited := by
        have := h3 j hj d (by rw [hk]) (by rw [hk]; exact hP)
        rwa [hk] at this
      refine ⟨hv', fun hk' => ?_⟩
      have := (h1.ce k).2 ⟨hv', hk'⟩
      simp only [allCells, List.flatMap_append, List.mem_append, List.flatMap_cons, List.flatMap_nil, List.append_nil]
      rcases List.mem_append.1 this with a | a
      · exact Or.inr a
      · exact Or.inl a
    · rw [List.concat_eq_append, ← List.cons_append, ← List.append_assoc] at e
      obtain ⟨e1, _⟩ := List.append_inj' e (by simp)
      obtain ⟨a, b⟩ := h.pre pre g post' e1 j hj d k hk hP
      exact ⟨h5 k (by simp [a]), b⟩

theorem scan_spec {G n p} (hp : ValidPart n p) (pi fuel : Nat) (cells : List Nat) (hc : ∀ i ∈ cells, inP n p i)
    (ps : PS) (h : SInv G n p pi ps) (hf : numElements n ≤ fuel) :
    ∃ ps', scan G n p pi fuel cells ps = some ps' ∧ SInv G n p pi ps' ∧ (∀ i ∈ cells, i ∈ ps'.visited) ∧
      (∀ x ∈ ps.visited, x ∈ ps'.visited) := by
  induction cells generalizing ps with
  | nil => exact ⟨ps, rfl, h, by simp, fun x hx => hx⟩
  | cons i rest ih =>
    obtain ⟨ps1, e1, h1, h2, h3⟩ := scanCell_spec hp pi fuel i (hc i (by simp)) ps h hf
    obtain ⟨ps2, e2, g1, g2, g3⟩ := ih (fun j hj => hc j (List.mem_cons_of_mem _ hj)) ps1 h1
    refine ⟨ps2, by simp only [scan, e1, e2], g1, ?_, fun x hx => g3 x (h3 x hx)⟩
    intro j hj
    rcases List.mem_cons.1 hj with rfl | hj
    · exact g3 _ h2
    · exact g2 j hj

theorem mem_partCells {n : V3 Nat} {p : Partition} (hp : ValidPart n p) (i : Nat) : i ∈ partCells n p ↔ inP n p i := by
  simp only [partCells, List.mem_flatMap, List.mem_range', List.mem_map, inP, InPart]
  constructor
  · rintro ⟨x, ⟨a, ha, rfl⟩, y, ⟨b, hb, rfl⟩, z, ⟨c, hc, rfl⟩, rfl⟩
    obtain ⟨⟨_, _⟩, ⟨_, _⟩, ⟨_, _⟩⟩ := hp
    rw [toMat_toVec n _ (by simp only [InGrid]; omega)]
    simp only
    omega
  · intro h
    obtain ⟨⟨a1, a2⟩, ⟨b1, b2⟩, ⟨c1, c2⟩⟩ := h
    refine ⟨(toMat n i).x, ⟨(toMat n i).x - p.first.x, by omega, by omega⟩,
      (toMat n i).y, ⟨(toMat n i).y - p.first.y, by omega, by omega⟩,
      (toMat n i).z, ⟨(toMat n i).z - p.first.z, by omega, by omega⟩, ?_⟩
    exact toVec_toMat n i

/-- The result of one partition. -/
structure PSpec (G : Geo) (n : V3 Nat) (p : Partition) (pi : Nat) (ps : PS) : Prop where
  tr : ∀ x, x ∈ ps.trimmed ↔ inP n p x ∧ G.trim x = true
  ce : ∀ x, x ∈ allCells ps.groups ↔ inP n p x ∧ G.trim x = false
  cnd : (allCells ps.groups).Nodup
  ok : ∀ g ∈ ps.groups, GroupOK G n p pi g
  both : ∀ g ∈ ps.groups, ∀ i ∈ g.cells, ∀ d j, next n p d i = (j, .middle) → G.trim j = false →
    G.trimP j d = false → G.trimP i (reverse d) = false → j ∈ g.cells

theorem next_reverse {n : V3 Nat} {p : Partition} (hp : ValidPart n p) {d i j} (hi : inP n p i)
    (h : next n p d i = (j, .middle)) : next n p (reverse d) j = (i, .middle) := by
  have hm : (next n p d i).2 = .middle := by rw [h]
  have hj : (next n p d i).1 = j := by rw [h]
  obtain ⟨h1, h2⟩ := next_mid hp hi hm
  rw [hj] at h1 h2
  refine next_of_neighbour h1 hi ?_
  cases d <;> simp only [Neighbour, reverse] at h2 ⊢ <;> omega

theorem fillPartition_spec {G n p} (hp : ValidPart n p) (fuel pi : Nat) (hf : numElements n ≤ fuel) :
    ∃ ps, fillPartition G n fuel pi p = some ps ∧ PSpec G n p pi ps := by
  obtain ⟨ps, e, h, hall, _⟩ := scan_spec (G := G) hp pi fuel (partCells n p) (fun i hi => (mem_partCells hp i).1 hi)
    ⟨[], [], []⟩ ⟨⟨by simp, by simp, by simp, by simp [allCells], by simp [allCells]⟩, by simp, by simp⟩ hf
  have hv : ∀ x, x ∈ ps.visited ↔ inP n p x := fun x => ⟨h.inv.vin x, fun hx => hall x ((mem_partCells hp x).2 hx)⟩
  refine ⟨ps, e, ?_, ?_, h.inv.cnd, h.ok, ?_⟩
  · intro x; rw [h.inv.tr, hv]
  · intro x; rw [h.inv.ce, hv]
  · intro g hg i hi d j hd ht hP hP'
    obtain ⟨pre, post, e1⟩ := List.append_of_mem hg
    have hig : i ∈ allCells ps.groups := List.mem_flatMap.2 ⟨g, hg, hi⟩
    have hiT : G.trim i = false := ((h.inv.ce i).1 hig).2
    have hip : inP n p i := h.inv.vin i ((h.inv.ce i).1 hig).1
    have hj := (h.pre pre g post e1 i hi d j hd hP).2 ht
    simp only [allCells, List.flatMap_append, List.mem_append, List.flatMap_cons, List.flatMap_nil, List.append_nil] at hj
    rcases hj with hj | hj
    swap
    · exact hj
    exfalso
    obtain ⟨g', hg', hjg'⟩ := List.mem_flatMap.1 hj
    obtain ⟨pre', post', e2⟩ := List.append_of_mem hg'
    have hback := next_reverse hp hip hd
    have hi' := (h.pre pre' g' (post' ++ g :: post) (by rw [e1, e2]; simp) j hjg' (reverse d) i hback hP').2 hiT
    have hnd := h.inv.cnd
    rw [e1, e2] at hnd
    simp only [allCells, List.flatMap_append, List.flatMap_cons, List.flatMap_nil, List.append_nil, List.mem_append] at hi' hnd
    rw [List.nodup_append] at hnd
    refine hnd.2.2 i ?_ i ?_ rfl
    · simp only [List.mem_append]; tauto
    · exact List.mem_append_left _ hi

end QuESo.Flood
