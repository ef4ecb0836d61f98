import Verif.Proofs.AABBTree
import Verif.Props.AABB
import Mathlib.Algebra.Order.Ring.Rat

/-!
# C26: the bounding-box tree finds exactly the boxes that satisfy the test

`junk` is the content of the nodes that have not been written; it is arbitrary in all theorems.
-/
namespace QuESo.AABBTree
open QuESo.AABB QuESo.Spec
variable {K : Type} [Field K] [LinearOrder K] [IsStrictOrderedRing K]

/-- C26: for any non-empty list of boxes (lower bounds not above upper bounds, at most 2^30 of them) the tree is
built without error, and a query with a box returns, without repetition, exactly the numbers of the boxes
that share a point with it. -/
theorem C26_box_query (junk : Node K) (boxes : List (Box K)) (hne : boxes ≠ []) (hb : ∀ b ∈ boxes, Ordered b)
    (hn : boxes.length ≤ 2 ^ 30) (q : Box K) (hq : Ordered q) :
    ∃ t ids, Tree.build junk boxes = .ok t ∧ t.query (fun b => intersectBox q b) = .ok ids ∧ ids.Nodup ∧
      ∀ i, i ∈ ids ↔ ∃ h : i < boxes.length, ∃ p, InBox q p ∧ InBox boxes[i] p := by
  obtain ⟨t, ids, h1, h2, h3, h4, h5⟩ := query_spec junk boxes hne hb (by norm_num at hn; exact hn) (fun b => intersectBox q b)
  refine ⟨t, ids, h1, h2, h3, fun i => ⟨fun hi => ?_, ?_⟩⟩
  · obtain ⟨h, ht⟩ := h4 i hi
    exact ⟨h, (C27_common_point q _ hq (hb _ (List.getElem_mem h))).1 ht⟩
  · rintro ⟨h, hp⟩
    refine h5 (fun b => ∃ p, InBox q p ∧ InBox b p) ?_ ?_ i h hp
    · rintro a b - - hab ⟨p, p1, p2⟩
      exact ⟨p, p1, hab p p2⟩
    · intro b ob hb
      exact (C27_common_point q b hq ob).2 hb

/-- C26: a query with a ray (any direction, also with zero components) returns every box that the ray meets, without
repetition; if no component of the direction is zero it returns exactly these. -/
theorem C26_ray_query (junk : Node K) (boxes : List (Box K)) (hne : boxes ≠ []) (hb : ∀ b ∈ boxes, Ordered b)
    (hn : boxes.length ≤ 2 ^ 30) (r : Ray K) :
    ∃ t ids, Tree.build junk boxes = .ok t ∧ t.query (fun b => r.intersectBox b) = .ok ids ∧ ids.Nodup ∧
      (∀ i, ∀ h : i < boxes.length, (∃ p, OnRay r.origin r.direction p ∧ InBox boxes[i] p) → i ∈ ids) ∧
      (r.direction.x ≠ 0 → r.direction.y ≠ 0 → r.direction.z ≠ 0 →
        ∀ i, i ∈ ids ↔ ∃ h : i < boxes.length, ∃ p, OnRay r.origin r.direction p ∧ InBox boxes[i] p) := by
  obtain ⟨t, ids, h1, h2, h3, h4, h5⟩ := query_spec junk boxes hne hb (by norm_num at hn; exact hn) (fun b => r.intersectBox b)
  have hc : ∀ i, ∀ h : i < boxes.length, (∃ p, OnRay r.origin r.direction p ∧ InBox boxes[i] p) → i ∈ ids := by
    intro i h hp
    refine h5 (fun b => ∃ p, OnRay r.origin r.direction p ∧ InBox b p) ?_ ?_ i h hp
    · rintro a b - - hab ⟨p, p1, p2⟩
      exact ⟨p, p1, hab p p2⟩
    · intro b _ hb
      exact C28_never_misses r b hb
  refine ⟨t, ids, h1, h2, h3, hc, fun hx hy hz i => ⟨fun hi => ?_, fun ⟨h, hp⟩ => hc i h hp⟩⟩
  obtain ⟨h, ht⟩ := h4 i hi
  exact ⟨h, (C28_exact r _ (hb _ (List.getElem_mem h)) hx hy hz).1 ht⟩

/-- C26: the stored tree.  Of the `2 n - 1` nodes in use each is a leaf of height 0 or an inner node with two
children in use that refer back to it, whose box is the smallest box around the boxes of the children and whose
height is one more than the larger one of the children. -/
theorem C26_structure (junk : Node K) (boxes : List (Box K)) (hne : boxes ≠ []) (hb : ∀ b ∈ boxes, Ordered b)
    (hn : boxes.length ≤ 2 ^ 30) :
    ∃ t, Tree.build junk boxes = .ok t ∧ t.nodeCount + 1 = 2 * boxes.length ∧ t.root < t.nodeCount ∧
      ∀ j < t.nodeCount, ∃ n, t.nodes[j]? = some n ∧ (n.isLeaf = true ∧ n.height = 0 ∨ n.isLeaf = false ∧
        ∃ l r, t.nodes[n.left]? = some l ∧ t.nodes[n.right]? = some r ∧ n.left < t.nodeCount ∧ n.right < t.nodeCount ∧
          l.parent = j ∧ r.parent = j ∧ n.box = merge l.box r.box ∧ n.height = 1 + max l.height r.height) := by
  obtain ⟨t, h1, hI⟩ := build_spec junk boxes hb (by norm_num at hn; exact hn)
  rcases hI.tree with ⟨he, -⟩ | ⟨x, hz, wx, hidx, hcnt, -⟩
  · exact absurd he (by simpa using hne)
  · have hm : ∀ j, j ∈ x.idxs ↔ j < t.nodeCount := fun j => by rw [hidx.mem_iff, List.mem_range]
    refine ⟨t, h1, by simpa using hcnt, by rw [top_root hz, ← hm]; exact idx_mem x, fun j hj => ?_⟩
    obtain ⟨n, a1, a2⟩ := rep_nodes hz.rep wx (fun e => hz.null (List.mem_append_left _ e)) j ((hm j).2 hj)
    refine ⟨n, a1, a2.imp id ?_⟩
    rintro ⟨b1, p, q, b2, b3, b4, b5, b6⟩
    exact ⟨b1, p, q, b2, b3, (hm _).1 b4, (hm _).1 b5, b6⟩

/-- C26: a box with a lower bound above its upper bound makes the construction fail with an error. -/
theorem C26_bad_box_error (junk : Node K) (boxes : List (Box K)) (hb : ∃ b ∈ boxes, ¬ Ordered b) (hn : boxes.length ≤ 2 ^ 30) :
    Tree.build junk boxes = .error .error :=
  insertAll_bad boxes 0 _ [] ⟨pool_new junk, rfl, Or.inl ⟨rfl, rfl, rfl⟩⟩ (by simp) hb (by norm_num at hn; simpa using hn)

/-- C26 does not extend to the empty list: the query of a tree without boxes reads outside the array. -/
theorem C26_empty_query_ub (junk : Node K) (test : Box K → Bool) :
    ∃ t, Tree.build junk [] = .ok t ∧ t.query test = .error .ub := by
  refine ⟨Tree.new junk, rfl, ?_⟩
  have : (Tree.new junk).get nullNode = .error .ub := by
    simp [Tree.get, Tree.new, chain, nullNode]
  have hr : (Tree.new junk).root = nullNode := rfl
  simp only [Tree.query, hr]
  have hl : (Tree.new junk).nodes.length + 1 = 16 + 1 := by simp [Tree.new, chain]
  rw [hl, Tree.queryLoop, this]

/-- C26, the bound on the number of boxes: when the array of 2^31 nodes is full, the doubled capacity wraps to zero
and the allocation reads outside the array. -/
theorem C26_capacity_wraps (junk : Node K) (t : Tree K) (hf : t.freeList = nullNode) (hc : t.nodeCapacity = 2 ^ 31) :
    t.allocate junk = .error .ub := by
  have h0 : (t.nodeCapacity * 2) % 4294967296 = 0 := by rw [hc]; norm_num
  simp only [Tree.allocate, hf, if_true, h0, Tree.get, chain, List.take_zero, List.mapIdx_nil, List.getElem?_nil]

/-- Three boxes, two of them disjoint: the hypotheses are met and the query answers. -/
example : (∀ b ∈ ([⟨⟨0, 0, 0⟩, ⟨1, 1, 1⟩⟩, ⟨⟨4, 4, 4⟩, ⟨5, 5, 5⟩⟩, ⟨⟨1, 1, 1⟩, ⟨4, 4, 4⟩⟩] : List (Box ℚ)), Ordered b) ∧
    ((Tree.build (⟨⟨⟨0, 0, 0⟩, ⟨0, 0, 0⟩⟩, 7, 7, 7, 7, 7, 7⟩ : Node ℚ)
      [⟨⟨0, 0, 0⟩, ⟨1, 1, 1⟩⟩, ⟨⟨4, 4, 4⟩, ⟨5, 5, 5⟩⟩, ⟨⟨1, 1, 1⟩, ⟨4, 4, 4⟩⟩]).bind fun t =>
        (t.query fun b => intersectBox ⟨⟨0, 0, 0⟩, ⟨1, 1, 1⟩⟩ b).map fun ids => (ids, t.nodeCount, t.root)).toOption = some ([2, 0], 5, 2) := by
  refine ⟨?_, by decide +kernel⟩
  simp only [List.mem_cons, List.not_mem_nil, or_false, forall_eq_or_imp, forall_eq, Ordered]
  norm_num

end QuESo.AABBTree
