import Verif.Proofs.Mapping
import Mathlib.Tactic.NormNum
import Mathlib.Algebra.Order.Ring.Rat

/-!
# C19, C20, C21, C50: the octree and the tensor-product rule

The geometry (`state` for boxes, `inside` for points) and the one-dimensional rules are arbitrary.
Arithmetic is exact (any ordered field).
-/
namespace QuESo.Octree
open Mapping Spec
variable {K : Type _} [Field K] [LinearOrder K] [IsStrictOrderedRing K]

/-- **C19** After any sequence of calls of `Refine` the leaves, together with boxes that the geometry
classified as outside, tile the root box, in physical and in parametric space. -/
theorem C19_tiles {state : Box K → IState} {xyz uvw : Box K} (hx : OrderedBox xyz) (hu : OrderedBox uvw)
    {calls : List (Nat × Nat)} {t : Tree K} (h : refines state (new xyz uvw) calls = some t) :
    ∃ pruned : List (Box K × Box K), (∀ q ∈ pruned, state q.1 = .outside) ∧
      Tiles xyz (t.root.leaves.map Leaf.xyz ++ pruned.map Prod.fst) ∧
      Tiles uvw (t.root.leaves.map Leaf.uvw ++ pruned.map Prod.snd) := by
  obtain ⟨hg, hh⟩ := refines_good h
  exact ⟨t.root.pruned, node_tiles hg hh hx hu⟩

/-- **C19** Consequently every point of the root box lies in a leaf or in a box classified as outside, and
no point lies in the interior of two leaves. -/
theorem C19_points {state : Box K → IState} {xyz uvw : Box K} (hx : OrderedBox xyz) (hu : OrderedBox uvw)
    {calls : List (Nat × Nat)} {t : Tree K} (h : refines state (new xyz uvw) calls = some t) :
    (∀ p, InBox xyz p → (∃ e ∈ t.root.leaves, InBox e.xyz p) ∨
      ∃ b, SubBox b xyz ∧ state b = .outside ∧ InBox b p) ∧
    (t.root.leaves.Pairwise fun a b => ∀ p, ¬ (InBoxInterior a.xyz p ∧ InBoxInterior b.xyz p)) := by
  obtain ⟨pr, ho, ht, -⟩ := C19_tiles hx hu h
  constructor
  · intro p hp
    obtain ⟨c, hc, hcp⟩ := ht.cover p hp
    rcases List.mem_append.1 hc with hc' | hc'
    · obtain ⟨e, he, rfl⟩ := List.mem_map.1 hc'
      exact Or.inl ⟨e, he, hcp⟩
    · obtain ⟨q, hq, rfl⟩ := List.mem_map.1 hc'
      exact Or.inr ⟨q.1, ht.within _ hc, ho q hq, hcp⟩
  · rw [List.pairwise_iff_getElem]
    intro i j hi hj hij p ⟨h1, h2⟩
    have o : ∀ {b : Box K}, InBoxInterior b p → InBoxHalfOpen b p := fun hb =>
      ⟨⟨hb.1.1.le, hb.1.2⟩, ⟨hb.2.1.1.le, hb.2.1.2⟩, hb.2.2.1.le, hb.2.2.2⟩
    have hroot : InBoxHalfOpen xyz p :=
      SubBox.halfOpen (ht.within _ (List.mem_append_left _ (List.mem_map.2 ⟨_, List.getElem_mem hi, rfl⟩))) (o h1)
    obtain ⟨l, c, r, e, hc, hn⟩ := ht.unique p hroot
    have g1 : (t.root.leaves.map Leaf.xyz ++ pr.map Prod.fst)[i]? = some (t.root.leaves[i].xyz) := by
      rw [List.getElem?_append_left (by simpa using hi)]; simp [hi]
    have g2 : (t.root.leaves.map Leaf.xyz ++ pr.map Prod.fst)[j]? = some (t.root.leaves[j].xyz) := by
      rw [List.getElem?_append_left (by simpa using hj)]; simp [hj]
    rw [e] at g1 g2
    have key : ∀ {m : Nat} {b : Box K}, (l ++ c :: r)[m]? = some b → InBoxHalfOpen b p → m = l.length := by
      intro m b hm hb
      rcases lt_trichotomy m l.length with hlt | heq | hgt
      · rw [List.getElem?_append_left hlt] at hm
        exact absurd hb (hn b (List.mem_append_left _ (List.mem_of_getElem? hm)))
      · exact heq
      · rw [List.getElem?_append_right hgt.le] at hm
        obtain ⟨s, hs⟩ : ∃ s, m - l.length = s + 1 := ⟨m - l.length - 1, by omega⟩
        rw [hs, List.getElem?_cons_succ] at hm
        exact absurd hb (hn b (List.mem_append_right _ (List.mem_of_getElem? hm)))
    have := key g1 (o h1)
    have := key g2 (o h2)
    omega

/-- **C19** `NumberOfLeafs` counts the leaves. -/
theorem C19_number_of_leafs (n : Node K) : n.numberOfLeafs = n.leaves.length := (leaves_length n).symm

/-- **C20** A sequence of calls of `Refine` fails exactly if one of them has a minimum above its maximum. -/
theorem C20_rejected_iff (state : Box K → IState) (t : Tree K) (calls : List (Nat × Nat)) :
    refines state t calls = none ↔ ∃ c ∈ calls, c.2 < c.1 := by
  constructor
  · intro h
    by_contra hc
    obtain ⟨t', ht⟩ := refines_some (state := state) (t := t) (calls := calls) (fun c hcc => by
      by_contra hlt; exact hc ⟨c, hcc, by omega⟩)
    rw [h] at ht; cases ht
  · rintro ⟨c, hc, hlt⟩
    cases h : refines state t calls with
    | none => rfl
    | some t' => have := (refines_eq h).2 c hc; omega

/-- **C20** Levels.  After any sequence of calls whose last one has the largest levels, no leaf is deeper
than the maximum; a leaf above the minimum level, or a trimmed leaf above the maximum level, remains only
if all of its octants are outside. -/
theorem C20_levels {state : Box K → IState} {xyz uvw : Box K} {calls : List (Nat × Nat)} {m M : Nat}
    (hc : ∀ c ∈ calls, c.1 ≤ m ∧ c.2 ≤ M) {t : Tree K}
    (h : refines state (new xyz uvw) (calls ++ [(m, M)]) = some t) :
    ∀ e ∈ t.root.leaves, e.level ≤ M ∧
      ((e.level < m ∨ (e.level < M ∧ e.status = .trimmed)) → ∀ c ∈ octants e.xyz, state c = .outside) := by
  obtain ⟨e, hle⟩ := refines_eq h
  rw [List.foldl_append, List.foldl_cons, List.foldl_nil, foldl_absorb _ _ _ _ hc] at e
  rw [e]
  have hm : m ≤ M := hle (m, M) (by simp)
  exact refineLeaf_levels state hm _ _ _ _ _ rfl (Nat.zero_le _)

/-- **C20** Every leaf is a copy of the root box scaled down by two to the power of its level; it has the
status that the geometry gives to its box, which is not outside (except that the root itself counts as
trimmed). -/
theorem C20_size_and_status {state : Box K → IState} {xyz uvw : Box K} (hx : OrderedBox xyz)
    (hu : ProperBox uvw) {calls : List (Nat × Nat)} {t : Tree K}
    (h : refines state (new xyz uvw) calls = some t) :
    ∀ e ∈ t.root.leaves, ScaledDown xyz e.xyz e.level ∧ ScaledDown uvw e.uvw e.level ∧
      ((e.level = 0 ∧ e.status = .trimmed) ∨ (e.status = state e.xyz ∧ e.status ≠ .outside)) := by
  obtain ⟨hg, hh⟩ := refines_good h
  intro e he
  have f := leaf_facts hg hh hx hu e he
  refine ⟨f.2.2.1, f.2.2.2.1, ?_⟩
  exact leaves_induct (Q := fun x _ s l => (l = 0 ∧ s = .trimmed) ∨ (s = state x ∧ s ≠ .outside))
    (fun x u s l k _ _ hs => Or.inr ⟨rfl, hs⟩) hg hh (Or.inl ⟨rfl, rfl⟩) e he

/-- **C20** History independence.  Calls before the last one do not matter if their levels are not larger;
in particular calling `Refine` twice with the same levels is the same as calling it once. -/
theorem C20_history {state : Box K → IState} {t t' t'' : Tree K} {calls : List (Nat × Nat)} {m M : Nat}
    (hc : ∀ c ∈ calls, c.1 ≤ m ∧ c.2 ≤ M)
    (h : refines state t (calls ++ [(m, M)]) = some t') (h' : refine state t m M = some t'') : t' = t'' := by
  have e := (refines_eq h).1
  rw [List.foldl_append, List.foldl_cons, List.foldl_nil, foldl_absorb _ _ _ _ hc] at e
  have hlast : ∃ s, refine state s m M = some t' := by
    unfold refines at h
    rw [List.foldlM_append] at h
    obtain ⟨s, hs, hs'⟩ := Option.bind_eq_some_iff.1 h
    refine ⟨s, ?_⟩
    simpa using hs'
  obtain ⟨s, hs⟩ := hlast
  unfold refine at hs h'
  split at hs
  · cases hs
  · rename_i hm
    rw [if_neg hm] at h'
    simp only [Option.some.injEq] at hs h'
    subst hs h'
    simp only [Tree.mk.injEq, and_true]
    exact e

/-- **C21** Every returned point lies in the parametric root box and in a leaf which either is inside as a
whole, or the image of the point under the map of the element passes the inside test. -/
theorem C21_inside {state : Box K → IState} {inside : V3 K → Bool} {rule : V3 (List (K × K))} {xyz uvw : Box K}
    (hx : OrderedBox xyz) (hu : ProperBox uvw)
    (r1 : NodesInUnit rule.x) (r2 : NodesInUnit rule.y) (r3 : NodesInUnit rule.z)
    {calls : List (Nat × Nat)} {t : Tree K} (h : refines state (new xyz uvw) calls = some t) :
    ∀ q ∈ t.root.points inside rule, InBox uvw q.pos ∧
      ∃ e ∈ t.root.leaves, InBox e.uvw q.pos ∧
        ((e.status = .inside ∧ state e.xyz = .inside) ∨ inside (toGlobal q.pos ⟨xyz, uvw⟩) = true) := by
  obtain ⟨hg, hh⟩ := refines_good h
  intro q hq
  rw [points_eq] at hq
  obtain ⟨e, he, hqe⟩ := List.mem_flatMap.1 hq
  obtain ⟨-, pu, -, -, hm, hsub, -⟩ := leaf_facts hg hh hx hu e he
  have st := (C20_size_and_status hx hu h e he).2.2
  have ou : OrderedBox e.uvw := ⟨pu.1.le, pu.2.1.le, pu.2.2.le⟩
  unfold leafPoints at hqe
  split at hqe
  · rename_i hs
    have hb := Quad.assembleIPs_inBox ou r1 r2 r3 hqe
    refine ⟨SubBox.inBox hsub hb, e, he, hb, Or.inl ⟨hs, ?_⟩⟩
    rcases st with st | st
    · rw [hs] at st; cases st.2
    · rw [← st.1, hs]
  · obtain ⟨h1, h2⟩ := List.mem_filter.1 hqe
    have hb := Quad.assembleIPs_inBox ou r1 r2 r3 h1
    refine ⟨SubBox.inBox hsub hb, e, he, hb, Or.inr ?_⟩
    rw [← hm]; exact h2

/-- **C21** The weights never add up to more than the volume of the root box. -/
theorem C21_weights_le {state : Box K → IState} {inside : V3 K → Bool} {rule : V3 (List (K × K))}
    {xyz uvw : Box K} (hx : OrderedBox xyz) (hu : ProperBox uvw)
    (p1 : ∀ q ∈ rule.x, 0 ≤ q.2) (p2 : ∀ q ∈ rule.y, 0 ≤ q.2) (p3 : ∀ q ∈ rule.z, 0 ≤ q.2)
    (s1 : (rule.x.map Prod.snd).sum = 1) (s2 : (rule.y.map Prod.snd).sum = 1)
    (s3 : (rule.z.map Prod.snd).sum = 1)
    {calls : List (Nat × Nat)} {t : Tree K} (h : refines state (new xyz uvw) calls = some t) :
    ((t.root.points inside rule).map VolPoint.weight).sum ≤ boxVolume uvw := by
  obtain ⟨hg, hh⟩ := refines_good h
  have add := node_additive (state := state) (fun b => boxVolume b)
    (fun b => by simpa only [funext volume_eq_monomial] using monomial_additive ⟨0, 0, 0⟩ b) hg hh
  have f := leaf_facts hg hh hx hu
  have step : ∀ e ∈ t.root.leaves,
      ((leafPoints inside rule e.xyz e.uvw e.status).map VolPoint.weight).sum ≤ boxVolume e.uvw := by
    intro e he
    have pu := (f e he).2.1
    have ou : OrderedBox e.uvw := ⟨pu.1.le, pu.2.1.le, pu.2.2.le⟩
    rw [← Quad.tensor_weights s1 s2 s3 ou]
    unfold leafPoints
    split
    · exact le_refl _
    · apply List.Sublist.sum_le_sum
      · exact List.Sublist.map _ List.filter_sublist
      · intro a ha
        obtain ⟨q, hq, rfl⟩ := List.mem_map.1 ha
        exact Quad.tensor_pos p1 p2 p3 hq
  have hp : 0 ≤ (t.root.pruned.map fun q => boxVolume q.2).sum := by
    apply List.sum_nonneg
    intro a ha
    obtain ⟨q, hq, rfl⟩ := List.mem_map.1 ha
    have := ((node_tiles hg hh hx ⟨hu.1.le, hu.2.1.le, hu.2.2.le⟩).2.2.within q.2
      (List.mem_append_right _ (List.mem_map.2 ⟨q, hq, rfl⟩))).1
    unfold boxVolume
    exact mul_nonneg (mul_nonneg (sub_nonneg.2 this.1) (sub_nonneg.2 this.2.1)) (sub_nonneg.2 this.2.2)
  have tot : ((t.root.points inside rule).map VolPoint.weight).sum ≤
      (t.root.leaves.map fun e => boxVolume e.uvw).sum := by
    rw [points_eq]
    generalize t.root.leaves = L at step
    induction L with
    | nil => simp
    | cons e L ih =>
      rw [List.flatMap_cons, List.map_append, List.sum_append, List.map_cons, List.sum_cons]
      exact add_le_add (step e (by simp)) (ih (fun a ha => step a (by simp [ha])))
  linarith

/-- **C21** If no part of the root box is outside and all its points pass the inside test, the rule
integrates exactly all monomials that the one-dimensional rules integrate exactly, after any sequence of
refinements; for the exponents zero: the weights add up to the volume. -/
theorem C21_exact {state : Box K → IState} {inside : V3 K → Bool} {rule : V3 (List (K × K))} {xyz uvw : Box K}
    (hx : ProperBox xyz) (hu : ProperBox uvw) {d : V3 Nat}
    (r1 : NodesInUnit rule.x) (r2 : NodesInUnit rule.y) (r3 : NodesInUnit rule.z)
    (e1 : ExactUpTo rule.x d.x) (e2 : ExactUpTo rule.y d.y) (e3 : ExactUpTo rule.z d.z)
    (hs : ∀ b, SubBox b xyz → state b ≠ .outside) (hi : ∀ p, InBox xyz p → inside p = true)
    {calls : List (Nat × Nat)} {t : Tree K} (h : refines state (new xyz uvw) calls = some t)
    {e : V3 Nat} (ex : e.x ≤ d.x) (ey : e.y ≤ d.y) (ez : e.z ≤ d.z) :
    ruleValue e (t.root.points inside rule) = monomialIntegral e uvw := by
  obtain ⟨hg, hh⟩ := refines_good h
  have hx' : OrderedBox xyz := ⟨hx.1.le, hx.2.1.le, hx.2.2.le⟩
  have hu' : OrderedBox uvw := ⟨hu.1.le, hu.2.1.le, hu.2.2.le⟩
  have nt := node_tiles hg hh hx' hu'
  have f := leaf_facts hg hh hx' hu
  have hp : t.root.pruned = [] := by
    apply List.eq_nil_iff_forall_not_mem.2
    intro q hq
    exact hs q.1 (nt.2.1.within q.1 (List.mem_append_right _ (List.mem_map.2 ⟨q, hq, rfl⟩))) (nt.1 q hq)
  have add := node_additive (state := state) (monomialIntegral e) (monomial_additive e) hg hh
  rw [hp] at add
  simp only [List.map_nil, List.sum_nil, add_zero] at add
  rw [← add, points_eq]
  have step : ∀ l ∈ t.root.leaves,
      ruleValue e (leafPoints inside rule l.xyz l.uvw l.status) = monomialIntegral e l.uvw := by
    intro l hl
    obtain ⟨-, pu, -, -, hm, hsub, -⟩ := f l hl
    have ou : OrderedBox l.uvw := ⟨pu.1.le, pu.2.1.le, pu.2.2.le⟩
    rw [← Quad.tensor_monomial e1 e2 e3 ou ex ey ez]
    unfold leafPoints
    split
    · rfl
    · congr 1
      rw [List.filter_eq_self]
      intro q hq
      apply hi
      rw [hm, show InBox xyz (toGlobal q.pos ⟨xyz, uvw⟩) ↔ InBox uvw q.pos from toGlobal_inBox (b := ⟨xyz, uvw⟩) hx hu q.pos]
      exact SubBox.inBox hsub (Quad.assembleIPs_inBox ou r1 r2 r3 hq)
  generalize t.root.leaves = L at step
  unfold ruleValue at step ⊢
  induction L with
  | nil => simp
  | cons a L ih =>
    rw [List.flatMap_cons, List.map_append, List.sum_append, List.map_cons, List.sum_cons,
      step a (by simp), ih (fun l hl => step l (by simp [hl]))]

/-- **C50** The rule of a box has the product of the numbers of one-dimensional points, all in the box. -/
theorem C50_points {ru rv rw : List (K × K)} {b : Box K} (hb : OrderedBox b) (hu : NodesInUnit ru)
    (hv : NodesInUnit rv) (hw : NodesInUnit rw) :
    (Quad.assembleIPs ru rv rw b).length = ru.length * rv.length * rw.length ∧
      ∀ q ∈ Quad.assembleIPs ru rv rw b, InBox b q.pos :=
  ⟨Quad.assembleIPs_length .., fun _ => Quad.assembleIPs_inBox hb hu hv hw⟩

/-- **C50** The weights add up to the volume of the box if the one-dimensional weights add up to one. -/
theorem C50_constants {ru rv rw : List (K × K)} (hu : (ru.map Prod.snd).sum = 1)
    (hv : (rv.map Prod.snd).sum = 1) (hw : (rw.map Prod.snd).sum = 1) {b : Box K} (hb : OrderedBox b) :
    ((Quad.assembleIPs ru rv rw b).map VolPoint.weight).sum = boxVolume b :=
  Quad.tensor_weights hu hv hw hb

/-- **C50** More generally the rule of a box integrates all monomials exactly up to the degrees of exactness
of the one-dimensional rules. -/
theorem C50_exact {ru rv rw : List (K × K)} {d : V3 Nat} (hu : ExactUpTo ru d.x)
    (hv : ExactUpTo rv d.y) (hw : ExactUpTo rw d.z) {b : Box K} (hb : OrderedBox b) {e : V3 Nat}
    (ex : e.x ≤ d.x) (ey : e.y ≤ d.y) (ez : e.z ≤ d.z) :
    ruleValue e (Quad.assembleIPs ru rv rw b) = monomialIntegral e b :=
  Quad.tensor_monomial hu hv hw hb ex ey ez

/-! ### Examples: the hypotheses can be met -/

/-- The midpoint rule is a rule that integrates linear functions. -/
example : NodesInUnit [((1 : ℚ) / 2, (1 : ℚ))] ∧ ExactUpTo [((1 : ℚ) / 2, (1 : ℚ))] 1 := by
  constructor
  · intro q hq; rw [List.mem_singleton.1 hq]; norm_num
  · intro j hj
    have : j = 0 ∨ j = 1 := by omega
    rcases this with rfl | rfl <;> norm_num

/-- A geometry that occupies the half `x < 1` of the box `[0,2]³`. -/
def halfState (b : Box ℚ) : IState :=
  if b.upper.x ≤ 1 then .inside else if 1 ≤ b.lower.x then .outside else .trimmed

/-- One refinement keeps the four inside octants and prunes the other four. -/
example : ∃ t, refines halfState (new ⟨⟨0, 0, 0⟩, ⟨2, 2, 2⟩⟩ ⟨⟨0, 0, 0⟩, ⟨1, 1, 1⟩⟩) [(0, 1), (1, 1)] = some t ∧
    t.root.numberOfLeafs = 4 ∧ t.root.numberOfNodes = 5 := by
  refine ⟨_, rfl, ?_, ?_⟩ <;>
  · simp [refineNode, new, leaf, refineLeaf, childBox, halfState, Node.count, Node.numberOfLeafs, Node.numberOfNodes,
      V3.scale]
    norm_num
    simp [refineNode, refineLeaf, leaf, Node.numberOfLeafs, Node.numberOfNodes]

end QuESo.Octree
