import Verif.Model.MultipleElements
import Verif.Props.BackgroundGrid
import Mathlib.Data.List.Perm.Subperm
import Mathlib.Data.List.Nodup

/-! # Helper lemmas for the GGQ box growing -/
namespace QuESo.GGQ
open QuESo.BGrid QuESo.Grid QuESo.Spec QuESo.Props

variable {α : Type _} {K : Type _} [Field K] [LinearOrder K]

/-- Ids of the untrimmed elements in storage order. -/
def ids (s : State α) : List Nat := s.untrimmed.map (·.1)

/-- The state is consistent and all untrimmed ids are ids of cells. -/
structure WF (s : State α) (n : V3 Nat) : Prop where
  inv : ∃ l, Inv s l
  range : ∀ i ∈ ids s, 1 ≤ i ∧ i ≤ numElements n

/-- Id of the cell after a step. -/
def nid (n : V3 Nat) (d : Dir) (i : Nat) : Nat := (nextGlobal n d (i - 1)).1 + 1

theorem ids_nodup {s : State α} {l} (h : Inv s l) : (ids s).Nodup := by
  unfold ids
  rw [h.unt, proj, List.map_map]
  exact h.nodup.sublist (List.filter_sublist.map _)

theorem lookup_ids {s : State α} {l} (h : Inv s l) (j : Nat) :
    (∃ a, s.getElement .untrimmed j = .elem .untrimmed j a) ∧ j ∈ ids s ∨
    (s.getElement .untrimmed j = .nothing ∧ j ∉ ids s) := by
  have hm : j ∈ ids s ↔ ∃ a, (Kind.untrimmed, j, a) ∈ l := by
    unfold ids
    rw [h.unt, proj, List.map_map]
    simp only [List.mem_map, List.mem_filter, isKind, beq_iff_eq, Function.comp]
    constructor
    · rintro ⟨⟨k, i, a⟩, ⟨h1, h2⟩, h3⟩
      simp only at h2 h3
      subst h2 h3
      exact ⟨a, h1⟩
    · rintro ⟨a, ha⟩
      exact ⟨_, ⟨ha, rfl⟩, rfl⟩
  have hg := getElement_of_inv h .untrimmed j
  by_cases hj : j ∈ ids s
  · left
    obtain ⟨a, ha⟩ := hm.mp hj
    have := find_of_nodup h.nodup ha
    rw [this] at hg
    exact ⟨⟨a, by simpa [accepts] using hg⟩, hj⟩
  · right
    refine ⟨?_, hj⟩
    rw [hg]
    cases hf : l.find? (fun e => e.2.1 == j) with
    | none => rfl
    | some e =>
      obtain ⟨k, i, a⟩ := e
      have h1 := List.mem_of_find?_eq_some hf
      have h2 := List.find?_some hf
      simp only [beq_iff_eq] at h2
      cases k with
      | trimmed => simp [accepts]
      | untrimmed => exact absurd (hm.mpr ⟨a, by rw [← h2]; exact h1⟩) hj

theorem pNext_eq {s : State α} {n : V3 Nat} (h : WF s n) (i : Nat) (d : Dir) :
    pNext s n i d = if nid n d i ∈ ids s then some (nid n d i) else none := by
  obtain ⟨l, hl⟩ := h.inv
  unfold pNext
  have e : (s.nextElement n .untrimmed i d).element = s.getElement .untrimmed (nid n d i) := rfl
  rw [e]
  rcases lookup_ids hl (nid n d i) with ⟨⟨a, h1⟩, h2⟩ | ⟨h1, h2⟩
  · rw [h1, if_pos h2]
  · rw [h1, if_neg h2]

/-- Facts about one step from a cell of the grid. -/
theorem step_facts (n : V3 Nat) (d : Dir) (i : Nat) (h1 : 1 ≤ i) (h2 : i ≤ numElements n) :
    ((nextGlobal n d (i - 1)).2 = .globalEnd → nid n d i = i) ∧
    ((nextGlobal n d (i - 1)).2 ≠ .globalEnd → nid n (reverse d) (nid n d i) = i) := by
  obtain ⟨hv, hin⟩ := id_sub_inPart n i h1 h2
  constructor
  · intro hg
    have hg' : (stepV (globalPartition n) d (toMat n (i - 1))).2 = .globalEnd := by
      unfold nextGlobal at hg; rw [next_eq] at hg; exact hg
    have := (stepV_global hv d hin hg').1
    unfold nid nextGlobal
    rw [next_eq, this, toVec_toMat]
    simp only []; omega
  · intro hg
    have := C02_reverse_undoes n _ hv d (i - 1) hin hg
    unfold nid
    have e : nextGlobal n (reverse d) ((nextGlobal n d (i - 1)).1 + 1 - 1) = (i - 1, (nextGlobal n d (i-1)).2) := by
      rw [Nat.add_sub_cancel]; exact this
    rw [e]; simp only []; omega

/-- Two different cells of a visited set have different unvisited successors. -/
theorem nid_inj {n : V3 Nat} {d : Dir} {V : List Nat} {i j : Nat}
    (hi : i ∈ V) (hj : j ∈ V) (hi1 : 1 ≤ i ∧ i ≤ numElements n) (hj1 : 1 ≤ j ∧ j ≤ numElements n)
    (hu : nid n d i ∉ V) (e : nid n d i = nid n d j) : i = j := by
  have fi := step_facts n d i hi1.1 hi1.2
  have fj := step_facts n d j hj1.1 hj1.2
  have gi : (nextGlobal n d (i - 1)).2 ≠ .globalEnd := fun hg => hu (by rw [fi.1 hg]; exact hi)
  have gj : (nextGlobal n d (j - 1)).2 ≠ .globalEnd := fun hg => hu (by rw [e, fj.1 hg]; exact hj)
  rw [← fi.2 gi, e, fj.2 gj]

theorem mem_neighbours {s : State α} {n : V3 Nat} (h : WF s n) {V box : List Nat} {d : Dir} {j : Nat} :
    j ∈ neighbours s n V box d ↔ ∃ i ∈ box, nid n d i = j ∧ j ∈ ids s ∧ j ∉ V := by
  unfold neighbours
  simp only [List.mem_filterMap]
  constructor
  · rintro ⟨i, hi, e⟩
    rw [pNext_eq h] at e
    by_cases hm : nid n d i ∈ ids s
    · rw [if_pos hm] at e
      simp only at e
      by_cases hv : nid n d i ∈ V
      · simp [hv] at e
      · simp only [hv, if_false, Option.some.injEq] at e
        subst e
        exact ⟨i, hi, rfl, hm, hv⟩
    · rw [if_neg hm] at e; simp at e
  · rintro ⟨i, hi, rfl, hm, hv⟩
    exact ⟨i, hi, by rw [pNext_eq h, if_pos hm]; simp [hv]⟩

theorem neighbours_nodup {s : State α} {n : V3 Nat} (h : WF s n) {V box : List Nat} {d : Dir}
    (hb : box.Nodup) (hsub : ∀ i ∈ box, i ∈ V) (hV : ∀ i ∈ V, i ∈ ids s) :
    (neighbours s n V box d).Nodup := by
  induction box with
  | nil => simp [neighbours]
  | cons i t ih =>
    have ht := ih (List.nodup_cons.mp hb).2 (fun j hj => hsub j (List.mem_cons_of_mem _ hj))
    have e : neighbours s n V (i :: t) d =
        (match (match pNext s n i d with
          | some j => if j ∈ V then none else some j
          | none => none) with
        | none => neighbours s n V t d
        | some j => j :: neighbours s n V t d) := by
      unfold neighbours
      rw [List.filterMap_cons]
      rcases pNext s n i d with _ | j
      · rfl
      · by_cases hj : j ∈ V <;> simp [hj]
    rw [e, pNext_eq h]
    by_cases hm : nid n d i ∈ ids s
    · rw [if_pos hm]
      by_cases hv : nid n d i ∈ V
      · simpa [hv] using ht
      · simp only [hv, if_false]
        refine List.nodup_cons.mpr ⟨fun hc => ?_, ht⟩
        obtain ⟨j, hj, e2, _, _⟩ := (mem_neighbours h).mp hc
        have hiV := hsub i (by simp)
        have hjV := hsub j (List.mem_cons_of_mem _ hj)
        have := nid_inj hiV hjV (h.range _ (hV _ hiV)) (h.range _ (hV _ hjV)) hv e2.symm
        rw [this] at hb
        exact (List.nodup_cons.mp hb).1 hj
    · rw [if_neg hm]; exact ht

theorem attempt_some {nb : Dir → List Nat} {size : V3 Nat} {k : Nat} {f : Dir → K} {d : Dir}
    (h : attempt nb size k f = some d) : (nb d).length = required size d := by
  induction k generalizing f with
  | zero => simp [attempt] at h
  | succ k ih =>
    unfold attempt at h
    simp only [] at h
    split at h
    · rename_i he
      simp only [Option.some.injEq] at h
      rw [← h]; exact he
    · exact ih h

/-- Invariant of the growth of one block: `visited` is a set of untrimmed ids that contains the
block, whose recorded sizes are positive. -/
structure GInv (s : State α) (visited : List Nat) (b : Block K) : Prop where
  vnodup : visited.Nodup
  vsub : ∀ i ∈ visited, i ∈ ids s
  bnodup : b.elems.Nodup
  bsub : ∀ i ∈ b.elems, i ∈ visited
  pos : 1 ≤ b.size.x ∧ 1 ≤ b.size.y ∧ 1 ≤ b.size.z

theorem required_pos {size : V3 Nat} (h : 1 ≤ size.x ∧ 1 ≤ size.y ∧ 1 ≤ size.z) (d : Dir) :
    1 ≤ required size d := by
  obtain ⟨h1, h2, h3⟩ := h
  cases d <;> simp only [required] <;> exact Nat.mul_pos (by omega) (by omega)

/-- One successful growth step. -/
theorem tryExpand_inv {s : State α} {n : V3 Nat} (h : WF s n) {cell : Nat → Box K} {c : Nat → K}
    {V : List Nat} {b : Block K} (hg : GInv s V b) {V' b'}
    (e : tryExpand s n cell c V b = some (V', b')) :
    GInv s V' b' ∧ ∃ r, V' = V ++ r ∧ b'.elems = b.elems ++ r ∧ r ≠ [] := by
  unfold tryExpand at e
  simp only [] at e
  cases ha : attempt (neighbours s n V b.elems) b.size 6
      (fun d => coeffSum c (neighbours s n V b.elems d)) with
  | none => rw [ha] at e; simp at e
  | some d =>
    rw [ha] at e
    simp only [Option.some.injEq, Prod.mk.injEq] at e
    obtain ⟨rfl, rfl⟩ := e
    have hl := attempt_some ha
    have hr := required_pos hg.pos d
    have hnn := neighbours_nodup (d := d) h hg.bnodup hg.bsub hg.vsub
    have hmem : ∀ j ∈ neighbours s n V b.elems d, j ∈ ids s ∧ j ∉ V := by
      intro j hj
      obtain ⟨_, _, _, h1, h2⟩ := (mem_neighbours h).mp hj
      exact ⟨h1, h2⟩
    refine ⟨⟨?_, ?_, ?_, ?_, ?_⟩, neighbours s n V b.elems d, rfl, rfl, ?_⟩
    · exact List.nodup_append'.mpr ⟨hg.vnodup, hnn, fun x hx hx' => (hmem x hx').2 hx⟩
    · intro i hi
      rcases List.mem_append.mp hi with hi | hi
      · exact hg.vsub i hi
      · exact (hmem i hi).1
    · exact List.nodup_append'.mpr ⟨hg.bnodup, hnn, fun x hx hx' => (hmem x hx').2 (hg.bsub x hx)⟩
    · intro i hi
      rcases List.mem_append.mp hi with hi | hi
      · exact List.mem_append_left _ (hg.bsub i hi)
      · exact List.mem_append_right _ hi
    · obtain ⟨p1, p2, p3⟩ := hg.pos
      cases d <;> simp only [bump] <;> omega
    · intro hc; rw [hc] at hl; simp at hl; omega

/-- The growth of one block ends and keeps the invariant; `P` is any further property that growth
steps keep. -/
theorem grow_spec {s : State α} {n : V3 Nat} (h : WF s n) {cell : Nat → Box K} {c : Nat → K}
    (P : List Nat → Block K → Prop)
    (hP : ∀ V b V' b', GInv s V b → P V b → tryExpand s n cell c V b = some (V', b') → P V' b')
    (fuel : Nat) : ∀ (V : List Nat) (b : Block K), GInv s V b → P V b →
      (ids s).length - V.length ≤ fuel →
      ∃ r b', grow s n cell c fuel V b = .ok (V ++ r, b') ∧ GInv s (V ++ r) b' ∧ b'.elems = b.elems ++ r ∧
        P (V ++ r) b' := by
  obtain ⟨l, hl⟩ := h.inv
  induction fuel with
  | zero =>
    intro V b hg hp hf
    cases he : tryExpand s n cell c V b with
    | none => exact ⟨[], b, by unfold grow; rw [he]; simp, by simpa using hg, by simp, by simpa using hp⟩
    | some x =>
      obtain ⟨V', b'⟩ := x
      obtain ⟨hg', r, e1, _, e3⟩ := tryExpand_inv h hg he
      have := (List.subperm_of_subset hg'.vnodup hg'.vsub).length_le
      rw [e1, List.length_append] at this
      have := List.length_pos_iff.mpr e3
      omega
  | succ fuel ih =>
    intro V b hg hp hf
    cases he : tryExpand s n cell c V b with
    | none => exact ⟨[], b, by unfold grow; rw [he]; simp, by simpa using hg, by simp, by simpa using hp⟩
    | some x =>
      obtain ⟨V', b'⟩ := x
      obtain ⟨hg', r, e1, e2, e3⟩ := tryExpand_inv h hg he
      have hp' := hP V b V' b' hg hp he
      have hlen := List.length_pos_iff.mpr e3
      obtain ⟨r2, b2, q1, q2, q3, q4⟩ := ih V' b' hg' hp' (by rw [e1, List.length_append]; omega)
      refine ⟨r ++ r2, b2, ?_, ?_, ?_, ?_⟩
      · unfold grow; rw [he]; simp only []; rw [q1, e1, List.append_assoc]
      · rw [← List.append_assoc, ← e1]; exact q2
      · rw [q3, e2, List.append_assoc]
      · rw [← List.append_assoc, ← e1]; exact q4

/-- All blocks: the visited set together with the blocks' elements stays a set of untrimmed ids; every
delivered id is visited at the end; every block satisfies `P`. -/
theorem blocks_spec {s : State α} {n : V3 Nat} (h : WF s n) {cell : Nat → Box K} {c : Nat → K}
    (P : List Nat → Block K → Prop)
    (hP : ∀ V b V' b', GInv s V b → P V b → tryExpand s n cell c V b = some (V', b') → P V' b')
    (hP0 : ∀ V id, id ∈ ids s → P V ⟨[id], ⟨1, 1, 1⟩, cell id⟩)
    (fuel : Nat) (hf : (ids s).length ≤ fuel) : ∀ (order V : List Nat), (∀ i ∈ order, i ∈ ids s) → V.Nodup →
      (∀ i ∈ V, i ∈ ids s) →
      ∃ bs, blocks s n cell c fuel order V = .ok bs ∧ (V ++ bs.flatMap (·.elems)).Nodup ∧
        (∀ i ∈ V ++ bs.flatMap (·.elems), i ∈ ids s) ∧ (∀ i ∈ order, i ∈ V ++ bs.flatMap (·.elems)) ∧
        (∀ b ∈ bs, ∃ V', P V' b ∧ GInv s V' b) := by
  intro order
  induction order with
  | nil =>
    intro V _ h2 h3
    exact ⟨[], by simp [blocks], by simpa using h2, by simpa using h3, by simp, by simp⟩
  | cons id order ih =>
    intro V h1 h2 h3
    unfold blocks
    by_cases hv : id ∈ V
    · rw [if_pos hv]
      obtain ⟨bs, q1, q2, q3, q4, q5⟩ := ih V (fun i hi => h1 i (List.mem_cons_of_mem _ hi)) h2 h3
      refine ⟨bs, q1, q2, q3, ?_, q5⟩
      intro i hi
      rcases List.mem_cons.mp hi with rfl | hi
      · exact List.mem_append_left _ hv
      · exact q4 i hi
    · rw [if_neg hv]
      have hid := h1 id (by simp)
      have hg : GInv s (V ++ [id]) (⟨[id], ⟨1, 1, 1⟩, cell id⟩ : Block K) := by
        refine ⟨?_, ?_, by simp, by simp, by simp⟩
        · exact List.nodup_append'.mpr ⟨h2, by simp, fun x hx hx' => hv (by simp at hx'; rwa [← hx'])⟩
        · intro i hi
          rcases List.mem_append.mp hi with hi | hi
          · exact h3 i hi
          · simp at hi; rw [hi]; exact hid
      obtain ⟨r, b', g1, g2, g3, g4⟩ := grow_spec h P hP fuel _ _ hg (hP0 _ _ hid) (by omega)
      rw [g1]
      simp only []
      have e : V ++ [id] ++ r = V ++ b'.elems := by rw [g3]; simp
      rw [e] at g2 g4
      rw [e]
      obtain ⟨bs, q1, q2, q3, q4, q5⟩ := ih (V ++ b'.elems) (fun i hi => h1 i (List.mem_cons_of_mem _ hi))
        g2.vnodup g2.vsub
      rw [q1]
      refine ⟨b' :: bs, rfl, ?_, ?_, ?_, ?_⟩
      · simpa [List.flatMap_cons] using q2
      · simpa [List.flatMap_cons] using q3
      · intro i hi
        rcases List.mem_cons.mp hi with rfl | hi
        · simp [g3]
        · simpa [List.flatMap_cons] using q4 i hi
      · intro b hb
        rcases List.mem_cons.mp hb with rfl | hb
        · exact ⟨_, g4, g2⟩
        · exact q5 b hb

end QuESo.GGQ
