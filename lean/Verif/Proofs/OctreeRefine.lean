import Verif.Proofs.Octree

namespace QuESo.Octree
open Mapping Spec
variable {K : Type _} [Field K] [LinearOrder K] [IsStrictOrderedRing K]

/-! ### The invariant of the tree -/

/-- Child slot `k` of a node: empty only if the box was classified outside, otherwise a node on the
child boxes, one level deeper, with the status of its box. -/
def ChildOk (state : Box K → IState) (xyz uvw : Box K) (level k : Nat) : Node K → Prop
  | .null => state (childBox xyz k) = .outside
  | .node x u s l _ _ _ _ _ _ _ _ _ =>
    x = childBox xyz k ∧ u = childBox uvw k ∧ l = level + 1 ∧ s = state (childBox xyz k) ∧ s ≠ .outside

/-- The invariant. -/
def Good (state : Box K → IState) : Node K → Prop
  | .null => True
  | .node xyz uvw _ level num c0 c1 c2 c3 c4 c5 c6 c7 =>
    num = c0.count + c1.count + c2.count + c3.count + c4.count + c5.count + c6.count + c7.count ∧
    (num ≠ 0 → ChildOk state xyz uvw level 0 c0 ∧ ChildOk state xyz uvw level 1 c1 ∧
      ChildOk state xyz uvw level 2 c2 ∧ ChildOk state xyz uvw level 3 c3 ∧
      ChildOk state xyz uvw level 4 c4 ∧ ChildOk state xyz uvw level 5 c5 ∧
      ChildOk state xyz uvw level 6 c6 ∧ ChildOk state xyz uvw level 7 c7) ∧
    Good state c0 ∧ Good state c1 ∧ Good state c2 ∧ Good state c3 ∧ Good state c4 ∧ Good state c5 ∧
      Good state c6 ∧ Good state c7

/-- The node has these boxes, status and level. -/
def Head (xyz uvw : Box K) (st : IState) (level : Nat) : Node K → Prop
  | .null => False
  | .node x u s l _ _ _ _ _ _ _ _ _ => x = xyz ∧ u = uvw ∧ s = st ∧ l = level

theorem refineLeaf_head (state : Box K → IState) (minL maxL : Nat) (xyz uvw : Box K) (st : IState)
    (level : Nat) : Head xyz uvw st level (refineLeaf state minL maxL xyz uvw st level) := by
  rw [refineLeaf]
  split
  · exact ⟨rfl, rfl, rfl, rfl⟩
  · exact ⟨rfl, rfl, rfl, rfl⟩

/-- The node in slot `k`. -/
def create (state : Box K → IState) (minL maxL : Nat) (xyz uvw : Box K) (level k : Nat) : Node K :=
  if state (childBox xyz k) ≠ .outside then
    refineLeaf state minL maxL (childBox xyz k) (childBox uvw k) (state (childBox xyz k)) (level + 1)
  else .null

theorem refineLeaf_eq (state : Box K → IState) (minL maxL : Nat) (xyz uvw : Box K) (st : IState)
    (level : Nat) :
    refineLeaf state minL maxL xyz uvw st level =
      if level < minL ∨ (level < maxL ∧ st = .trimmed) then
        let c := create state minL maxL xyz uvw level
        .node xyz uvw st level
          ((c 0).count + (c 1).count + (c 2).count + (c 3).count + (c 4).count + (c 5).count + (c 6).count +
            (c 7).count) (c 0) (c 1) (c 2) (c 3) (c 4) (c 5) (c 6) (c 7)
      else leaf xyz uvw st level := by
  rw [refineLeaf]
  by_cases h : level < minL ∨ (level < maxL ∧ st = .trimmed)
  · rw [dif_pos h, if_pos h]; rfl
  · rw [dif_neg h, if_neg h]

theorem childOk_of_head {state : Box K → IState} {xyz uvw : Box K} {level k : Nat} {n : Node K}
    (h : Head (childBox xyz k) (childBox uvw k) (state (childBox xyz k)) (level + 1) n)
    (hs : state (childBox xyz k) ≠ .outside) : ChildOk state xyz uvw level k n := by
  cases n with
  | null => exact h.elim
  | node x u s l num => 
    obtain ⟨rfl, rfl, rfl, rfl⟩ := h
    exact ⟨rfl, rfl, rfl, rfl, hs⟩

theorem create_ok (state : Box K → IState) (minL maxL : Nat) (xyz uvw : Box K) (level k : Nat) :
    ChildOk state xyz uvw level k (create state minL maxL xyz uvw level k) := by
  unfold create
  split
  · rename_i h
    exact childOk_of_head (refineLeaf_head _ _ _ _ _ _ _) h
  · rename_i h
    simpa [ChildOk] using h

theorem good_leaf (state : Box K → IState) (xyz uvw : Box K) (st : IState) (level : Nat) :
    Good state (leaf xyz uvw st level) := by
  simp [leaf, Good, Node.count]

theorem refineLeaf_good (state : Box K → IState) (minL maxL : Nat) (m : Nat) :
    ∀ (xyz uvw : Box K) (st : IState) (level : Nat), max minL maxL - level = m →
    Good state (refineLeaf state minL maxL xyz uvw st level) := by
  induction m using Nat.strong_induction_on with
  | _ m ih =>
  intro xyz uvw st level hm
  rw [refineLeaf_eq]
  split
  · rename_i h
    have hc : ∀ k, Good state (create state minL maxL xyz uvw level k) := by
      intro k
      unfold create
      split
      · exact ih (max minL maxL - (level + 1)) (by omega) _ _ _ _ rfl
      · trivial
    exact ⟨rfl, fun _ => ⟨create_ok .., create_ok .., create_ok .., create_ok .., create_ok .., create_ok ..,
      create_ok .., create_ok ..⟩, hc _, hc _, hc _, hc _, hc _, hc _, hc _, hc _⟩
  · exact good_leaf ..

theorem refineNode_head {state : Box K → IState} {minL maxL : Nat} {xyz uvw : Box K} {st : IState}
    {level : Nat} {n : Node K} (h : Head xyz uvw st level n) :
    Head xyz uvw st level (refineNode state minL maxL n) := by
  cases n with
  | null => exact h.elim
  | node x u s l num =>
    obtain ⟨rfl, rfl, rfl, rfl⟩ := h
    unfold refineNode
    split
    · exact refineLeaf_head ..
    · exact ⟨rfl, rfl, rfl, rfl⟩

theorem refineNode_childOk {state : Box K → IState} {minL maxL : Nat} {xyz uvw : Box K}
    {level k : Nat} {n : Node K} (h : ChildOk state xyz uvw level k n) :
    ChildOk state xyz uvw level k (refineNode state minL maxL n) := by
  cases n with
  | null => exact h
  | node x u s l num =>
    obtain ⟨rfl, rfl, rfl, rfl, h⟩ := h
    exact childOk_of_head (refineNode_head (by exact ⟨rfl, rfl, rfl, rfl⟩)) h

theorem refineNode_count (state : Box K → IState) (minL maxL : Nat) (n : Node K) :
    (refineNode state minL maxL n).count = n.count := by
  cases n with
  | null => rfl
  | node x u s l num c0 c1 c2 c3 c4 c5 c6 c7 =>
    have h := refineNode_head (state := state) (minL := minL) (maxL := maxL) (xyz := x) (uvw := u) (st := s)
      (level := l) (n := .node x u s l num c0 c1 c2 c3 c4 c5 c6 c7) ⟨rfl, rfl, rfl, rfl⟩
    cases h' : refineNode state minL maxL (.node x u s l num c0 c1 c2 c3 c4 c5 c6 c7) with
    | null => rw [h'] at h; exact h.elim
    | node => rfl

theorem refineNode_good {state : Box K → IState} (minL maxL : Nat) {n : Node K} (h : Good state n) :
    Good state (refineNode state minL maxL n) := by
  induction n with
  | null => trivial
  | node x u s l num c0 c1 c2 c3 c4 c5 c6 c7 i0 i1 i2 i3 i4 i5 i6 i7 =>
    obtain ⟨hn, hc, g0, g1, g2, g3, g4, g5, g6, g7⟩ := h
    unfold refineNode
    split
    · exact refineLeaf_good _ _ _ _ _ _ _ _ rfl
    · rename_i h0
      obtain ⟨k0, k1, k2, k3, k4, k5, k6, k7⟩ := hc h0
      refine ⟨by simpa only [refineNode_count] using hn, fun _ => ⟨refineNode_childOk k0, refineNode_childOk k1,
        refineNode_childOk k2, refineNode_childOk k3, refineNode_childOk k4, refineNode_childOk k5,
        refineNode_childOk k6, refineNode_childOk k7⟩, i0 g0, i1 g1, i2 g2, i3 g3, i4 g4, i5 g5, i6 g6, i7 g7⟩

/-! ### Coarser refinements are absorbed -/

theorem create_count (state : Box K → IState) (m M m' M' : Nat) (xyz uvw : Box K) (level k : Nat) :
    (create state m M xyz uvw level k).count = (create state m' M' xyz uvw level k).count := by
  unfold create
  split
  · have : ∀ a b, (refineLeaf state a b (childBox xyz k) (childBox uvw k) (state (childBox xyz k))
        (level + 1)).count = 1 := by
      intro a b
      have h := refineLeaf_head state a b (childBox xyz k) (childBox uvw k) (state (childBox xyz k)) (level + 1)
      cases h' : refineLeaf state a b (childBox xyz k) (childBox uvw k) (state (childBox xyz k)) (level + 1) with
      | null => rw [h'] at h; exact h.elim
      | node => rfl
    rw [this, this]
  · rfl

theorem absorb_leaf (state : Box K → IState) {m M m' M' : Nat} (h1 : m ≤ m') (h2 : M ≤ M') (d : Nat) :
    ∀ (xyz uvw : Box K) (st : IState) (level : Nat), max m M - level = d →
    refineNode state m' M' (refineLeaf state m M xyz uvw st level) = refineLeaf state m' M' xyz uvw st level := by
  induction d using Nat.strong_induction_on with
  | _ d ih =>
  intro xyz uvw st level hd
  rw [refineLeaf_eq state m M]
  by_cases h : level < m ∨ (level < M ∧ st = .trimmed)
  · rw [if_pos h]
    simp only
    have hc : ∀ k, refineNode state m' M' (create state m M xyz uvw level k) = create state m' M' xyz uvw level k := by
      intro k
      unfold create
      split
      · exact ih (max m M - (level + 1)) (by omega) _ _ _ _ rfl
      · rfl
    unfold refineNode
    split
    · rfl
    · rw [refineLeaf_eq state m' M', if_pos (by rcases h with h | h; exacts [Or.inl (by omega), Or.inr ⟨by omega, h.2⟩])]
      simp only [hc]
      simp only [create_count state m M m' M']
  · rw [if_neg h]
    rfl

theorem absorb (state : Box K → IState) {m M m' M' : Nat} (h1 : m ≤ m') (h2 : M ≤ M') (n : Node K) :
    refineNode state m' M' (refineNode state m M n) = refineNode state m' M' n := by
  induction n with
  | null => rfl
  | node x u s l num c0 c1 c2 c3 c4 c5 c6 c7 i0 i1 i2 i3 i4 i5 i6 i7 =>
    by_cases h : num = 0
    · rw [show refineNode state m M (.node x u s l num c0 c1 c2 c3 c4 c5 c6 c7) = refineLeaf state m M x u s l by
        rw [refineNode, if_pos h],
        show refineNode state m' M' (.node x u s l num c0 c1 c2 c3 c4 c5 c6 c7) = refineLeaf state m' M' x u s l by
        rw [refineNode, if_pos h]]
      exact absorb_leaf state h1 h2 _ _ _ _ _ rfl
    · rw [refineNode, if_neg h, refineNode, if_neg h, refineNode, if_neg h, i0, i1, i2, i3, i4, i5, i6, i7]

/-! ### Consequences of the invariant for the leaves -/

theorem count_eq_zero {n : Node K} : n.count = 0 ↔ n = .null := by
  cases n <;> simp [Node.count]

/-- What the leaves inherit from the root of a good tree. -/
theorem leaves_induct {state : Box K → IState} (Q : Box K → Box K → IState → Nat → Prop)
    (hQ : ∀ x u s l k, k < 8 → Q x u s l → state (childBox x k) ≠ .outside →
      Q (childBox x k) (childBox u k) (state (childBox x k)) (l + 1))
    {n : Node K} (hg : Good state n) {xyz uvw : Box K} {st : IState} {level : Nat}
    (hh : Head xyz uvw st level n) (h : Q xyz uvw st level) :
    ∀ e ∈ n.leaves, Q e.xyz e.uvw e.status e.level := by
  induction n generalizing xyz uvw st level with
  | null => exact hh.elim
  | node x u s l num c0 c1 c2 c3 c4 c5 c6 c7 i0 i1 i2 i3 i4 i5 i6 i7 =>
    obtain ⟨rfl, rfl, rfl, rfl⟩ := hh
    obtain ⟨hn, hc, g0, g1, g2, g3, g4, g5, g6, g7⟩ := hg
    intro e he
    unfold Node.leaves at he
    by_cases h0 : num = 0
    · rw [if_pos h0] at he
      rw [List.mem_singleton.1 he]; exact h
    · rw [if_neg h0] at he
      obtain ⟨k0, k1, k2, k3, k4, k5, k6, k7⟩ := hc h0
      have key : ∀ (c : Node K) (k : Nat), k < 8 → ChildOk state x u l k c →
          (∀ {xyz uvw : Box K} {st : IState} {level : Nat}, Head xyz uvw st level c → Q xyz uvw st level →
            ∀ e ∈ c.leaves, Q e.xyz e.uvw e.status e.level) → e ∈ c.leaves →
          Q e.xyz e.uvw e.status e.level := by
        intro c k hk hok ih hec
        cases c with
        | null => simp [Node.leaves] at hec
        | node x' u' s' l' =>
          obtain ⟨rfl, rfl, rfl, rfl, hs⟩ := hok
          exact ih ⟨rfl, rfl, rfl, rfl⟩ (hQ x u s l k hk h hs) e hec
      simp only [List.mem_append] at he
      rcases he with ((((((he | he) | he) | he) | he) | he) | he) | he
      · exact key c0 0 (by omega) k0 (i0 g0) he
      · exact key c1 1 (by omega) k1 (i1 g1) he
      · exact key c2 2 (by omega) k2 (i2 g2) he
      · exact key c3 3 (by omega) k3 (i3 g3) he
      · exact key c4 4 (by omega) k4 (i4 g4) he
      · exact key c5 5 (by omega) k5 (i5 g5) he
      · exact key c6 6 (by omega) k6 (i6 g6) he
      · exact key c7 7 (by omega) k7 (i7 g7) he

/-- The pruned boxes of a node, in the order of the children. -/
def Node.pruned : Node K → List (Box K × Box K)
  | .null => []
  | .node xyz uvw _ _ num c0 c1 c2 c3 c4 c5 c6 c7 =>
    let slot := fun (k : Nat) (c : Node K) (l : List (Box K × Box K)) =>
      if c.count = 0 then [(childBox xyz k, childBox uvw k)] else l
    if num = 0 then []
    else slot 0 c0 c0.pruned ++ slot 1 c1 c1.pruned ++ slot 2 c2 c2.pruned ++ slot 3 c3 c3.pruned ++
      slot 4 c4 c4.pruned ++ slot 5 c5 c5.pruned ++ slot 6 c6 c6.pruned ++ slot 7 c7 c7.pruned

/-- What is shown of a slot: the leaves and the pruned boxes together. -/
def SlotTiles (state : Box K → IState) (x u : Box K) (c : Node K) (pr : List (Box K × Box K)) : Prop :=
  (∀ q ∈ pr, state q.1 = .outside) ∧
  Tiles x (c.leaves.map Leaf.xyz ++ pr.map Prod.fst) ∧ Tiles u (c.leaves.map Leaf.uvw ++ pr.map Prod.snd)

theorem perm8 {α : Type _} (a0 a1 a2 a3 a4 a5 a6 a7 b0 b1 b2 b3 b4 b5 b6 b7 : List α) :
    ([a0 ++ b0, a1 ++ b1, a2 ++ b2, a3 ++ b3, a4 ++ b4, a5 ++ b5, a6 ++ b6, a7 ++ b7].flatten).Perm
      ((a0 ++ a1 ++ a2 ++ a3 ++ a4 ++ a5 ++ a6 ++ a7) ++ (b0 ++ b1 ++ b2 ++ b3 ++ b4 ++ b5 ++ b6 ++ b7)) := by
  rw [← Multiset.coe_eq_coe]
  simp only [List.flatten_cons, List.flatten_nil, List.append_nil, ← Multiset.coe_add]
  abel

theorem node_tiles {state : Box K → IState} {n : Node K} (hg : Good state n) {xyz uvw : Box K} {st : IState}
    {level : Nat} (hh : Head xyz uvw st level n) (hx : OrderedBox xyz) (hu : OrderedBox uvw) :
    SlotTiles state xyz uvw n n.pruned := by
  induction n generalizing xyz uvw st level with
  | null => exact hh.elim
  | node x u s l num c0 c1 c2 c3 c4 c5 c6 c7 i0 i1 i2 i3 i4 i5 i6 i7 =>
    obtain ⟨rfl, rfl, rfl, rfl⟩ := hh
    obtain ⟨hn, hc, g0, g1, g2, g3, g4, g5, g6, g7⟩ := hg
    unfold SlotTiles Node.pruned Node.leaves
    by_cases h0 : num = 0
    · simp only [if_pos h0]
      exact ⟨by simp, by simpa using tiles_self hx, by simpa using tiles_self hu⟩
    · simp only [if_neg h0]
      obtain ⟨k0, k1, k2, k3, k4, k5, k6, k7⟩ := hc h0
      have key : ∀ (c : Node K) (k : Nat), childBox x k ∈ kids x → childBox u k ∈ kids u →
          ChildOk state x u l k c →
          (∀ {xyz uvw : Box K} {st : IState} {level : Nat}, Head xyz uvw st level c →
            OrderedBox xyz → OrderedBox uvw → SlotTiles state xyz uvw c c.pruned) →
          SlotTiles state (childBox x k) (childBox u k) c
            (if c.count = 0 then [(childBox x k, childBox u k)] else c.pruned) := by
        intro c k hkx hku hok ih
        have ox := ((tiles_kids hx).within _ hkx).1
        have ou := ((tiles_kids hu).within _ hku).1
        cases c with
        | null =>
          refine ⟨?_, ?_, ?_⟩
          · intro q hq
            simp [Node.count] at hq
            rw [hq]; exact hok
          · simpa [Node.leaves, Node.count] using tiles_self ox
          · simpa [Node.leaves, Node.count] using tiles_self ou
        | node x' u' s' l' num' =>
          obtain ⟨rfl, rfl, rfl, rfl, hs⟩ := hok
          rw [if_neg (by simp [Node.count])]
          exact ih ⟨rfl, rfl, rfl, rfl⟩ ox ou
      have s0 := key c0 0 (by simp [kids]) (by simp [kids]) k0 (i0 g0)
      have s1 := key c1 1 (by simp [kids]) (by simp [kids]) k1 (i1 g1)
      have s2 := key c2 2 (by simp [kids]) (by simp [kids]) k2 (i2 g2)
      have s3 := key c3 3 (by simp [kids]) (by simp [kids]) k3 (i3 g3)
      have s4 := key c4 4 (by simp [kids]) (by simp [kids]) k4 (i4 g4)
      have s5 := key c5 5 (by simp [kids]) (by simp [kids]) k5 (i5 g5)
      have s6 := key c6 6 (by simp [kids]) (by simp [kids]) k6 (i6 g6)
      have s7 := key c7 7 (by simp [kids]) (by simp [kids]) k7 (i7 g7)
      refine ⟨?_, ?_, ?_⟩
      · intro q hq
        simp only [List.mem_append] at hq
        rcases hq with ((((((hq | hq) | hq) | hq) | hq) | hq) | hq) | hq
        exacts [s0.1 q hq, s1.1 q hq, s2.1 q hq, s3.1 q hq, s4.1 q hq, s5.1 q hq, s6.1 q hq, s7.1 q hq]
      · simp only [List.map_append]
        refine Tiles.perm (tiles_flatten (tiles_kids hx) ?_) (perm8 ..)
        exact .cons s0.2.1 (.cons s1.2.1 (.cons s2.2.1 (.cons s3.2.1 (.cons s4.2.1 (.cons s5.2.1
          (.cons s6.2.1 (.cons s7.2.1 .nil)))))))
      · simp only [List.map_append]
        refine Tiles.perm (tiles_flatten (tiles_kids hu) ?_) (perm8 ..)
        exact .cons s0.2.2 (.cons s1.2.2 (.cons s2.2.2 (.cons s3.2.2 (.cons s4.2.2 (.cons s5.2.2
          (.cons s6.2.2 (.cons s7.2.2 .nil)))))))

/-- An additive function of boxes adds up over the leaves and the pruned boxes. -/
theorem node_additive {state : Box K → IState} (I : Box K → K) (hI : ∀ b, ((kids b).map I).sum = I b)
    {n : Node K} (hg : Good state n) {xyz uvw : Box K} {st : IState}
    {level : Nat} (hh : Head xyz uvw st level n) :
    (n.leaves.map fun e => I e.uvw).sum + (n.pruned.map fun q => I q.2).sum = I uvw := by
  induction n generalizing xyz uvw st level with
  | null => exact hh.elim
  | node x u s l num c0 c1 c2 c3 c4 c5 c6 c7 i0 i1 i2 i3 i4 i5 i6 i7 =>
    obtain ⟨rfl, rfl, rfl, rfl⟩ := hh
    obtain ⟨hn, hc, g0, g1, g2, g3, g4, g5, g6, g7⟩ := hg
    unfold Node.pruned Node.leaves
    by_cases h0 : num = 0
    · simp [if_pos h0]
    · simp only [if_neg h0]
      obtain ⟨k0, k1, k2, k3, k4, k5, k6, k7⟩ := hc h0
      have key : ∀ (c : Node K) (k : Nat), ChildOk state x u l k c →
          (∀ {xyz uvw : Box K} {st : IState} {level : Nat}, Head xyz uvw st level c →
            (c.leaves.map fun e => I e.uvw).sum + (c.pruned.map fun q => I q.2).sum = I uvw) →
          (c.leaves.map fun e => I e.uvw).sum +
            (((if c.count = 0 then [(childBox x k, childBox u k)] else c.pruned)).map fun q => I q.2).sum
              = I (childBox u k) := by
        intro c k hok ih
        cases c with
        | null => simp [Node.leaves, Node.count]
        | node x' u' s' l' num' =>
          obtain ⟨rfl, rfl, rfl, rfl, hs⟩ := hok
          rw [if_neg (by simp [Node.count])]
          exact ih ⟨rfl, rfl, rfl, rfl⟩
      have s0 := key c0 0 k0 (i0 g0)
      have s1 := key c1 1 k1 (i1 g1)
      have s2 := key c2 2 k2 (i2 g2)
      have s3 := key c3 3 k3 (i3 g3)
      have s4 := key c4 4 k4 (i4 g4)
      have s5 := key c5 5 k5 (i5 g5)
      have s6 := key c6 6 k6 (i6 g6)
      have s7 := key c7 7 k7 (i7 g7)
      rw [← hI u]
      simp only [kids, List.map_append, List.sum_append, List.map_cons, List.map_nil, List.sum_cons,
        List.sum_nil, ← s0, ← s1, ← s2, ← s3, ← s4, ← s5, ← s6, ← s7]
      ring

/-! ### Levels -/

theorem refineLeaf_levels (state : Box K → IState) {minL maxL : Nat} (hmm : minL ≤ maxL) (d : Nat) :
    ∀ (xyz uvw : Box K) (st : IState) (level : Nat), maxL - level = d → level ≤ maxL →
    ∀ e ∈ (refineLeaf state minL maxL xyz uvw st level).leaves, e.level ≤ maxL ∧
      ((e.level < minL ∨ (e.level < maxL ∧ e.status = .trimmed)) → ∀ c ∈ octants e.xyz, state c = .outside) := by
  induction d using Nat.strong_induction_on with
  | _ d ih =>
  intro xyz uvw st level hd hl e he
  rw [refineLeaf_eq] at he
  by_cases h : level < minL ∨ (level < maxL ∧ st = .trimmed)
  · rw [if_pos h] at he
    simp only [Node.leaves] at he
    split at he
    · rename_i h0
      rw [List.mem_singleton.1 he]
      refine ⟨hl, fun _ c hc => ?_⟩
      rw [mem_octants] at hc
      have hz : ∀ k, (create state minL maxL xyz uvw level k).count = 0 → state (childBox xyz k) = .outside := by
        intro k hk
        rw [count_eq_zero] at hk
        have := create_ok state minL maxL xyz uvw level k
        rw [hk] at this
        exact this
      simp only [kids, List.mem_cons, List.not_mem_nil, or_false] at hc
      rcases hc with rfl | rfl | rfl | rfl | rfl | rfl | rfl | rfl <;> exact hz _ (by omega)
    · have hc : ∀ k, e ∈ (create state minL maxL xyz uvw level k).leaves → e.level ≤ maxL ∧
          ((e.level < minL ∨ (e.level < maxL ∧ e.status = .trimmed)) →
            ∀ c ∈ octants e.xyz, state c = .outside) := by
        intro k hk
        unfold create at hk
        split at hk
        · exact ih (maxL - (level + 1)) (by omega) _ _ _ _ rfl (by omega) e hk
        · simp [Node.leaves] at hk
      simp only [List.mem_append] at he
      rcases he with ((((((he | he) | he) | he) | he) | he) | he) | he <;> exact hc _ he
  · rw [if_neg h] at he
    simp only [leaf, Node.leaves, if_true, List.mem_singleton] at he
    subst he
    exact ⟨hl, fun h' => absurd h' h⟩

theorem leaves_length (n : Node K) : n.leaves.length = n.numberOfLeafs := by
  induction n with
  | null => rfl
  | node x u s l num c0 c1 c2 c3 c4 c5 c6 c7 i0 i1 i2 i3 i4 i5 i6 i7 =>
    unfold Node.leaves Node.numberOfLeafs
    split
    · rfl
    · simp only [List.length_append, i0, i1, i2, i3, i4, i5, i6, i7]

/-! ### Points -/

theorem points_eq (inside : V3 K → Bool) (rule : V3 (List (K × K))) (n : Node K) :
    n.points inside rule = n.leaves.flatMap fun e => leafPoints inside rule e.xyz e.uvw e.status := by
  induction n with
  | null => rfl
  | node x u s l num c0 c1 c2 c3 c4 c5 c6 c7 i0 i1 i2 i3 i4 i5 i6 i7 =>
    unfold Node.leaves Node.points
    split
    · simp
    · simp only [List.flatMap_append, i0, i1, i2, i3, i4, i5, i6, i7]

end QuESo.Octree
