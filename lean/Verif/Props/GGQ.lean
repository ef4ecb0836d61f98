import Verif.Proofs.GGQCoeff
import Mathlib.Algebra.Order.Ring.Rat
import Mathlib.Algebra.Field.Rat
import Mathlib.Tactic.NormNum

/-!
# Properties C15 – C18: assembly of the generalized Gaussian quadrature (GGQ)
-/
namespace QuESo.Props
open QuESo.Grid QuESo.Spec QuESo.BGrid QuESo.GGQ

variable {α : Type _} {K : Type _} [Field K] [LinearOrder K]

/-- The ids of the untrimmed elements that the grid lists after a history. -/
abbrev untrimmedIds (ops : List (Op α)) : List Nat := ((gridAfter ops).views .untrimmed).map (·.2.1)

theorem untrimmedIds_eq (ops : List (Op α)) : untrimmedIds ops = ids (gridAfter ops) := by
  simp [untrimmedIds, State.views, ids, List.map_map, Function.comp_def]

theorem wf_of_range (ops : List (Op α)) (n : V3 Nat)
    (h : ∀ i ∈ untrimmedIds ops, 1 ≤ i ∧ i ≤ numElements n) : WF (gridAfter ops) n :=
  ⟨⟨_, gridAfter_inv ops⟩, by rw [← untrimmedIds_eq]; exact h⟩

/-! ## C15 Every untrimmed element is handled exactly once -/

/-- The assembly ends (for every number of loop iterations that is at least the number of untrimmed
elements the result is the same), and the blocks that it builds contain every untrimmed element exactly
once and nothing else; for any neighbour coefficients `c` and any order in which the queue delivers the
elements. -/
theorem C15_blocks_partition (ops : List (Op α)) (n : V3 Nat) (cell : Nat → Box K) (c : Nat → K)
    (hr : ∀ i ∈ untrimmedIds ops, 1 ≤ i ∧ i ≤ numElements n)
    (order : List Nat) (ho : order.Perm (untrimmedIds ops)) (fuel : Nat) (hf : (untrimmedIds ops).length ≤ fuel) :
    ∃ bs, blocks (gridAfter ops) n cell c fuel order [] = .ok bs ∧
      (bs.flatMap (·.elems)).Perm (untrimmedIds ops) := by
  have hw := wf_of_range ops n hr
  rw [untrimmedIds_eq] at ho hf ⊢
  obtain ⟨bs, q1, q2, q3, q4, _⟩ := blocks_spec (cell := cell) (c := c) hw (fun _ _ => True) (by simp) (by simp)
    fuel hf order [] (fun i hi => ho.mem_iff.mp hi) (by simp) (by simp)
  refine ⟨bs, q1, ?_⟩
  simp only [List.nil_append] at q2 q3 q4
  have hn : (ids (gridAfter ops)).Nodup := ids_nodup (gridAfter_inv ops)
  exact (List.perm_ext_iff_of_nodup q2 hn).mpr (fun i => ⟨q3 i, fun hi => q4 i (ho.mem_iff.mpr hi)⟩)

theorem grow_mono (s : State α) (n : V3 Nat) (cell : Nat → Box K) (c : Nat → K) (f : Nat) :
    ∀ (g : Nat) (V : List Nat) (b : Block K) (r), f ≤ g → grow s n cell c f V b = .ok r →
      grow s n cell c g V b = .ok r := by
  induction f with
  | zero =>
    intro g V b r _ h
    unfold grow at h ⊢
    cases he : tryExpand s n cell c V b with
    | none => rw [he] at h; exact h
    | some x => rw [he] at h; simp at h
  | succ f ih =>
    intro g V b r hg h
    obtain ⟨g', rfl⟩ : ∃ g', g = g' + 1 := ⟨g - 1, by omega⟩
    unfold grow at h ⊢
    cases he : tryExpand s n cell c V b with
    | none => rw [he] at h; exact h
    | some x =>
      rw [he] at h
      exact ih g' _ _ _ (by omega) h

/-- The number of iterations granted to the loops does not matter once it suffices: the model's loop
bound is not part of the behaviour. -/
theorem C15_fuel_irrelevant (s : State α) (n : V3 Nat) (cell : Nat → Box K) (c : Nat → K) (f g : Nat) (hfg : f ≤ g) :
    ∀ (order V : List Nat) (bs), blocks s n cell c f order V = .ok bs → blocks s n cell c g order V = .ok bs := by
  intro order
  induction order with
  | nil => intro V bs h; exact h
  | cons id order ih =>
    intro V bs h
    unfold blocks at h ⊢
    split
    · rename_i hv
      rw [if_pos hv] at h
      exact ih _ _ h
    · rename_i hv
      rw [if_neg hv] at h
      cases he : grow s n cell c f (V ++ [id]) ⟨[id], ⟨1, 1, 1⟩, cell id⟩ with
      | error => rw [he] at h; simp at h
      | outOfFuel => rw [he] at h; simp at h
      | ok x =>
        obtain ⟨v', b⟩ := x
        rw [he] at h
        rw [grow_mono s n cell c f g _ _ _ hfg he]
        simp only [] at h ⊢
        cases he2 : blocks s n cell c f order v' with
        | error => rw [he2] at h; simp at h
        | outOfFuel => rw [he2] at h; simp at h
        | ok bs' =>
          rw [he2] at h
          rw [ih v' bs' he2]
          exact h

/-! ## Concrete grid used as witness and as example -/

/-- A 2×2×1 grid whose cells 1 = (0,0,0), 2 = (1,0,0) and 3 = (0,1,0) are untrimmed, and cell
4 = (1,1,0) is trimmed. -/
def cornerOps : List (Op Unit) :=
  [.make .untrimmed 1 (some ()), .make .untrimmed 2 (some ()), .make .untrimmed 3 (some ()),
   .make .trimmed 4 (some ())]

def cornerSize : V3 Nat := ⟨2, 2, 1⟩

/-- Parametric domain of the example: [0,2]×[0,2]×[0,1], every cell has edge length 1. -/
def cornerDom : Box ℚ := ⟨⟨0, 0, 0⟩, ⟨2, 2, 1⟩⟩

/-- The tolerance 1e-14 of the code. -/
def tol14 : ℚ := 1 / 10 ^ 14

/-- The coefficients the code computes on this grid. -/
def cornerCoeff : Nat → ℚ :=
  match computeCoefficients (gridAfter cornerOps) cornerSize tol14 4 with
  | .ok c => c
  | _ => fun _ => 0

/-- The blocks the code builds on this grid. -/
def cornerBlocks : List (Block ℚ) :=
  match blocks (gridAfter cornerOps) cornerSize (fun id => boxUVW cornerSize cornerDom true (id - 1))
      cornerCoeff 4 [3, 2, 1] [] with
  | .ok bs => bs
  | _ => []

example : (∀ i ∈ untrimmedIds cornerOps, 1 ≤ i ∧ i ≤ numElements cornerSize) ∧
    [3, 2, 1].Perm (untrimmedIds cornerOps) := by
  decide +kernel

/-- The order [3,2,1] is the order of the priority queue: the code's comparison says that no later
element has higher priority. -/
theorem corner_order : compareByCoefficient tol14 cornerCoeff 3 2 = false ∧
    compareByCoefficient tol14 cornerCoeff 3 1 = false ∧ compareByCoefficient tol14 cornerCoeff 2 1 = false := by
  decide +kernel

theorem corner_blocks : cornerBlocks.map (fun b => (b.elems, b.size.x, b.size.y, b.size.z)) =
    [([3, 2, 1], 3, 1, 1)] := by
  decide +kernel

/-! ## C16 Blocks are cuboids -/

/-- FALSE of the code: with wrapped neighbours (see C09) the code builds a 'box' of recorded size 3×1×1 on
a grid that has only 2×2×1 cells; its three elements form an L. -/
theorem C16_false_of_code :
    ¬ ∀ (ops : List (Op Unit)) (n : V3 Nat) (dom : Box ℚ) (c : Nat → ℚ) (order : List Nat) (fuel : Nat)
        (bs : List (Block ℚ)),
      (∀ i ∈ untrimmedIds ops, 1 ≤ i ∧ i ≤ numElements n) → order.Perm (untrimmedIds ops) →
      computeCoefficients (gridAfter ops) n tol14 (numElements n) = .ok c →
      order.Pairwise (fun a b => compareByCoefficient tol14 c a b = false) →
      blocks (gridAfter ops) n (fun id => boxUVW n dom true (id - 1)) c fuel order [] = .ok bs →
      ∀ b ∈ bs, ∃ lo, IsBlock n lo b.size b.elems := by
  intro h
  have hc : computeCoefficients (gridAfter cornerOps) cornerSize tol14 (numElements cornerSize) =
      .ok cornerCoeff := by
    have : ∃ c, computeCoefficients (gridAfter cornerOps) cornerSize tol14 4 = .ok c := by
      obtain ⟨c, e, _⟩ := computeCoefficients_ok (wf_of_range cornerOps cornerSize (by decide +kernel)) tol14
        (by unfold tol14; norm_num) (by decide) 4 (by decide)
      exact ⟨c, e⟩
    obtain ⟨c, e⟩ := this
    show computeCoefficients (gridAfter cornerOps) cornerSize tol14 4 = .ok cornerCoeff
    unfold cornerCoeff
    rw [e]
  have hb : blocks (gridAfter cornerOps) cornerSize (fun id => boxUVW cornerSize cornerDom true (id - 1))
      cornerCoeff 4 [3, 2, 1] [] = .ok cornerBlocks := by
    obtain ⟨bs, e, _⟩ := C15_blocks_partition cornerOps cornerSize
      (fun id => boxUVW cornerSize cornerDom true (id - 1)) cornerCoeff (by decide +kernel) [3, 2, 1]
      (by decide +kernel) 4 (by decide +kernel)
    unfold cornerBlocks
    rw [e]
  have hlen := corner_blocks
  obtain ⟨b, hb1⟩ : ∃ b, b ∈ cornerBlocks := by
    cases hcb : cornerBlocks with
    | nil => rw [hcb] at hlen; simp at hlen
    | cons x t => exact ⟨x, by simp⟩
  have hbs : (b.elems, b.size.x, b.size.y, b.size.z) = ([3, 2, 1], 3, 1, 1) := by
    have : (b.elems, b.size.x, b.size.y, b.size.z) ∈
        cornerBlocks.map (fun b => (b.elems, b.size.x, b.size.y, b.size.z)) :=
      List.mem_map.mpr ⟨b, hb1, rfl⟩
    rw [hlen] at this
    simpa using this
  obtain ⟨lo, ⟨l1, _⟩, _⟩ := h cornerOps cornerSize cornerDom cornerCoeff [3, 2, 1] 4 cornerBlocks
    (by decide +kernel) (by decide +kernel) hc
    (by
      obtain ⟨o1, o2, o3⟩ := corner_order
      simp [o1, o2, o3]) hb b hb1
  simp only [Prod.mk.injEq] at hbs
  rw [hbs.2.1] at l1
  simp only [cornerSize] at l1
  omega

section Cuboids
variable [IsStrictOrderedRing K]

/-- What holds: if the neighbour lookup never hands out a wrapped element (from an untrimmed element
and a direction with the flag 'end'), every block is an axis-parallel block of grid cells of the recorded
size, and the recorded bounds are those of that block.  Missing for the full property: grids in which a
wrapped element is handed out (there it is false). -/
theorem C16_cuboids_partial (ops : List (Op α)) (n : V3 Nat) (dom : Box K) (c : Nat → K)
    (hr : ∀ i ∈ untrimmedIds ops, 1 ≤ i ∧ i ≤ numElements n)
    (hwrap : ∀ i ∈ untrimmedIds ops, ∀ d k j a, ((gridAfter ops).nextElement n .untrimmed i d).isEnd = true →
      ((gridAfter ops).nextElement n .untrimmed i d).element = .elem k j a → j = i)
    (order : List Nat) (ho : order.Perm (untrimmedIds ops)) (fuel : Nat) (bs : List (Block K))
    (hf : (untrimmedIds ops).length ≤ fuel)
    (hb : blocks (gridAfter ops) n (fun id => boxUVW n dom true (id - 1)) c fuel order [] = .ok bs) :
    ∀ b ∈ bs, ∃ lo, IsBlock n lo b.size b.elems ∧ (1 ≤ b.size.x ∧ 1 ≤ b.size.y ∧ 1 ≤ b.size.z) ∧
      b.bounds.lower = (cellBox n dom lo).lower ∧
      b.bounds.upper = (cellBox n dom ⟨lo.x + b.size.x - 1, lo.y + b.size.y - 1, lo.z + b.size.z - 1⟩).upper := by
  have hw := wf_of_range ops n hr
  rw [untrimmedIds_eq] at ho hf hwrap
  have hnw : NoWrap (gridAfter ops) n := by
    intro i hi d he
    unfold pNext
    cases hel : ((gridAfter ops).nextElement n .untrimmed i d).element with
    | nothing => exact Or.inl rfl
    | ub => exact Or.inl rfl
    | elem k j a => right; simp only []; rw [hwrap i hi d k j a he hel]
  let P : List Nat → Block K → Prop := fun _ b =>
    ∃ lo, IsBlock n lo b.size b.elems ∧ b.bounds = blkBounds n dom lo b.size
  obtain ⟨bs', q1, _, _, _, q5⟩ := blocks_spec (cell := fun id => boxUVW n dom true (id - 1)) (c := c) hw P
    (by
      rintro V b V' b' hg ⟨lo, hbl, hbd⟩ he
      unfold tryExpand at he
      simp only [] at he
      cases ha : attempt (neighbours (gridAfter ops) n V b.elems) b.size 6
          (fun d => coeffSum c (neighbours (gridAfter ops) n V b.elems d)) with
      | none => rw [ha] at he; simp at he
      | some d =>
        rw [ha] at he
        simp only [Option.some.injEq, Prod.mk.injEq] at he
        obtain ⟨rfl, rfl⟩ := he
        have hl := attempt_some ha
        obtain ⟨g1, g2, g3⟩ := grow_block hw hnw hg hbl hl
        refine ⟨newLo lo d, g1, ?_⟩
        simp only []
        rw [hbd]
        apply grow_bounds hg.pos g2
        · intro hc
          have := required_pos hg.pos d
          rw [← hl, hc] at this
          simp at this
        · intro j hj
          obtain ⟨w, w1, w2, w3⟩ := g3 j hj
          refine ⟨w, w1, ?_⟩
          simp only [boxUVW, if_true]
          rw [(hasId_iff _ _ _).mp w3, Nat.add_sub_cancel, toMat_toVec n w w2])
    (by
      intro V id hid
      obtain ⟨r1, r2⟩ := hw.range id hid
      have hg := toMat_inGrid n (id - 1) (by omega)
      obtain ⟨a1, a2, a3⟩ := hg
      refine ⟨toMat n (id - 1), ⟨⟨a1, a2, a3⟩, by simp, fun j => ?_⟩, ?_⟩
      · simp only [List.mem_singleton]
        constructor
        · rintro rfl
          refine ⟨toMat n (j - 1), ⟨⟨le_refl _, by simp⟩, ⟨le_refl _, by simp⟩, ⟨le_refl _, by simp⟩⟩, ?_⟩
          rw [hasId_iff, toVec_toMat]; omega
        · rintro ⟨v, ⟨⟨b1, b2⟩, ⟨b3, b4⟩, ⟨b5, b6⟩⟩, hv⟩
          simp only at b2 b4 b6
          have : v = toMat n (id - 1) := V3.ext' (by omega) (by omega) (by omega)
          rw [(hasId_iff _ _ _).mp hv, this, toVec_toMat]; omega
      · simp only [boxUVW, if_true, blkBounds, Nat.add_sub_cancel])
    fuel hf order [] (fun i hi => ho.mem_iff.mp hi) (by simp) (by simp)
  rw [q1] at hb
  simp only [Res.ok.injEq] at hb
  subst hb
  intro b hb
  obtain ⟨V', ⟨lo, h1, h2⟩, h3⟩ := q5 b hb
  exact ⟨lo, h1, h3.pos, by rw [h2, blkBounds], by rw [h2, blkBounds]⟩

/-- In particular all blocks are cuboids if no untrimmed element lies in the outermost layer of the
grid. -/
theorem C16_interior_partial (ops : List (Op α)) (n : V3 Nat) (dom : Box K) (c : Nat → K)
    (hr : ∀ i ∈ untrimmedIds ops, 1 ≤ i ∧ i ≤ numElements n)
    (hint : ∀ i ∈ untrimmedIds ops, ∀ d, ∃ w, InGrid n w ∧ Neighbour d (toMat n (i - 1)) w)
    (order : List Nat) (ho : order.Perm (untrimmedIds ops)) (fuel : Nat) (bs : List (Block K))
    (hf : (untrimmedIds ops).length ≤ fuel)
    (hb : blocks (gridAfter ops) n (fun id => boxUVW n dom true (id - 1)) c fuel order [] = .ok bs) :
    ∀ b ∈ bs, ∃ lo, IsBlock n lo b.size b.elems := by
  intro b hb'
  obtain ⟨lo, h1, _⟩ := C16_cuboids_partial ops n dom c hr (by
    intro i hi d k j a he hel
    obtain ⟨r1, r2⟩ := hr i hi
    obtain ⟨w, hw, hn⟩ := hint i hi d
    have h8 := C08_next_element ops n .untrimmed i d r1 r2
    simp only [] at h8
    have hadj := C09_adjacent_partial ops n .untrimmed i d r1 r2 w hw hn
    have hf : ((gridAfter ops).nextElement n .untrimmed i d).isEnd = false := by
      rw [h8.1]
      refine ⟨w, hw, hn, k, a, ?_⟩
      rw [← hadj, hel]
      have : j = toVec n w + 1 := by
        rw [hel] at hadj
        have hl := hadj.symm
        unfold expectedLookup at hl
        cases hs : stored ops (toVec n w + 1) with
        | none => rw [hs] at hl; simp at hl
        | some e =>
          obtain ⟨k', i', a'⟩ := e
          have hi' : i' = toVec n w + 1 := by
            have := List.find?_some hs
            simpa using this
          rw [hs] at hl
          simp only [] at hl
          split at hl
          · simp only [Look.elem.injEq] at hl; omega
          · simp at hl
      rw [this]
    rw [hf] at he
    simp at he) order ho fuel bs hf hb b hb'
  exact ⟨lo, h1⟩

/-- Example for the hypotheses: a 4×4×4 grid with two untrimmed elements in its interior. -/
example : let ops : List (Op Unit) := [.make .untrimmed 22 (some ()), .make .untrimmed 23 (some ())]
    (∀ i ∈ untrimmedIds ops, 1 ≤ i ∧ i ≤ numElements ⟨4, 4, 4⟩) ∧
    (∀ i ∈ untrimmedIds ops, ∀ d, ∃ w, InGrid ⟨4, 4, 4⟩ w ∧ Neighbour d (toMat ⟨4, 4, 4⟩ (i - 1)) w) := by
  refine ⟨by decide +kernel, ?_⟩
  intro i hi d
  have : i = 22 ∨ i = 23 := by
    have h : untrimmedIds ([.make .untrimmed 22 (some ()), .make .untrimmed 23 (some ())] : List (Op Unit)) = [22, 23] := by
      decide +kernel
    rw [h] at hi; simpa using hi
  rcases this with rfl | rfl <;> cases d
  · exact ⟨⟨2, 1, 1⟩, by decide, by simp [Neighbour, toMat]⟩
  · exact ⟨⟨0, 1, 1⟩, by decide, by simp [Neighbour, toMat]⟩
  · exact ⟨⟨1, 2, 1⟩, by decide, by simp [Neighbour, toMat]⟩
  · exact ⟨⟨1, 0, 1⟩, by decide, by simp [Neighbour, toMat]⟩
  · exact ⟨⟨1, 1, 2⟩, by decide, by simp [Neighbour, toMat]⟩
  · exact ⟨⟨1, 1, 0⟩, by decide, by simp [Neighbour, toMat]⟩
  · exact ⟨⟨3, 1, 1⟩, by decide, by simp [Neighbour, toMat]⟩
  · exact ⟨⟨1, 1, 1⟩, by decide, by simp [Neighbour, toMat]⟩
  · exact ⟨⟨2, 2, 1⟩, by decide, by simp [Neighbour, toMat]⟩
  · exact ⟨⟨2, 0, 1⟩, by decide, by simp [Neighbour, toMat]⟩
  · exact ⟨⟨2, 1, 2⟩, by decide, by simp [Neighbour, toMat]⟩
  · exact ⟨⟨2, 1, 0⟩, by decide, by simp [Neighbour, toMat]⟩

/-! ## C17 Weights -/

/-- A one-dimensional rule on the unit interval is usable on an interval of length `len`: the weights
add up to one and all points lie in the unit interval and not within `eps` (absolute, on the interval) of
its end. -/
def GoodRule (eps len : K) (rule : List (K × K)) : Prop :=
  (rule.map (·.2)).sum = 1 ∧ ∀ q ∈ rule, 0 ≤ q.1 ∧ len * q.1 < len - eps

/-- Sum of all weights that are handed to the elements of a block. -/
def totalWeight (l : List (Nat × List (IP K))) : K :=
  (l.map (fun e => (e.2.map (·.weight)).sum)).sum

/-- For every block of cells with matching bounds: the weights handed to its elements add up to the
volume of the block, which is the sum of the volumes of its elements. -/
theorem C17_block_weights (n lo : V3 Nat) (dom : Box K) (hd : ProperBox dom)
    (b : Block K) (hb : IsBlock n lo b.size b.elems) (hpos : 1 ≤ b.size.x ∧ 1 ≤ b.size.y ∧ 1 ≤ b.size.z)
    (hlow : b.bounds.lower = (cellBox n dom lo).lower)
    (hup : b.bounds.upper = (cellBox n dom ⟨lo.x + b.size.x - 1, lo.y + b.size.y - 1, lo.z + b.size.z - 1⟩).upper)
    (eps2 eps3 : K) (h3 : 0 ≤ eps3) (rule : V3 (Nat → List (K × K)))
    (rx : GoodRule eps3 (b.bounds.upper.x - b.bounds.lower.x) (rule.x b.size.x))
    (ry : GoodRule eps3 (b.bounds.upper.y - b.bounds.lower.y) (rule.y b.size.y))
    (rz : GoodRule eps3 (b.bounds.upper.z - b.bounds.lower.z) (rule.z b.size.z)) :
    totalWeight (assembleBlock eps2 eps3 rule (fun id => boxUVW n dom true (id - 1)) b) = boxVolume b.bounds ∧
    (b.elems.map (fun id => boxVolume (boxUVW n dom true (id - 1)))).sum = boxVolume b.bounds := by
  obtain ⟨p1, p2, p3⟩ := hpos
  obtain ⟨⟨g1, g2, g3⟩, _⟩ := id hb
  obtain ⟨d1, d2, d3⟩ := hd
  have hcell : ∀ a b' c', a < b.size.x → b' < b.size.y → c' < b.size.z →
      boxUVW n dom true (toVec n ⟨lo.x + a, lo.y + b', lo.z + c'⟩ + 1 - 1) =
        cellBox n dom ⟨lo.x + a, lo.y + b', lo.z + c'⟩ := by
    intro a b' c' h1 h2 h3
    rw [Nat.add_sub_cancel]
    unfold boxUVW
    rw [if_pos rfl, toMat_toVec n _ ⟨by simp only []; omega, by simp only []; omega, by simp only []; omega⟩]
  have lx : b.bounds.lower.x = dom.lower.x + delta dom.lower.x dom.upper.x n.x * (lo.x : K) := by
    rw [hlow]; rfl
  have ly : b.bounds.lower.y = dom.lower.y + delta dom.lower.y dom.upper.y n.y * (lo.y : K) := by
    rw [hlow]; rfl
  have lz : b.bounds.lower.z = dom.lower.z + delta dom.lower.z dom.upper.z n.z * (lo.z : K) := by
    rw [hlow]; rfl
  have hcast : ∀ a s : Nat, 1 ≤ s → (1 : K) + ((a + s - 1 : Nat) : K) = ((a + s : Nat) : K) := by
    intro a s hs
    have : a + s = (a + s - 1) + 1 := by omega
    conv_rhs => rw [this]
    push_cast; ring
  have ux : b.bounds.upper.x = dom.lower.x + delta dom.lower.x dom.upper.x n.x * ((lo.x + b.size.x : Nat) : K) := by
    rw [hup]; simp only [cellBox]; rw [hcast _ _ p1]
  have uy : b.bounds.upper.y = dom.lower.y + delta dom.lower.y dom.upper.y n.y * ((lo.y + b.size.y : Nat) : K) := by
    rw [hup]; simp only [cellBox]; rw [hcast _ _ p2]
  have uz : b.bounds.upper.z = dom.lower.z + delta dom.lower.z dom.upper.z n.z * ((lo.z + b.size.z : Nat) : K) := by
    rw [hup]; simp only [cellBox]; rw [hcast _ _ p3]
  have Dx := delta_pos d1 (show 0 < n.x by omega)
  have Dy := delta_pos d2 (show 0 < n.y by omega)
  have Dz := delta_pos d3 (show 0 < n.z by omega)
  have hlen : ∀ (base D : K) (a s : Nat), 0 < D →
      |base + D * ((a + s : Nat) : K) - (base + D * (a : K))| = base + D * ((a + s : Nat) : K) - (base + D * (a : K)) := by
    intro base D a s hD
    apply abs_of_nonneg
    have : (0 : K) ≤ D * (s : K) := mul_nonneg hD.le (Nat.cast_nonneg _)
    push_cast
    linarith [mul_add D (a : K) (s : K)]
  constructor
  · unfold totalWeight assembleBlock
    rw [List.map_map]
    have hsum : ∀ id, ((fun e : Nat × List (IP K) => (e.2.map (·.weight)).sum) ∘
        (fun id => (id, elementPoints eps2 eps3 rule b.size b.bounds (boxUVW n dom true (id - 1))))) id =
        sumW (elementPoints eps2 eps3 rule b.size b.bounds (boxUVW n dom true (id - 1))) := fun _ => rfl
    rw [funext hsum, sum_block hb]
    have hx := row_sum dom.lower.x _ eps2 eps3 _ _ Dx lo.x b.size.x (rule.x b.size.x) lx ux (by
      intro q hq
      obtain ⟨h1, h2⟩ := rx.2 q hq
      constructor
      · have : 0 ≤ (b.bounds.upper.x - b.bounds.lower.x) * q.1 := by
          refine mul_nonneg ?_ h1
          rw [ux, lx, ← hlen _ _ _ _ Dx]; exact abs_nonneg _
        linarith
      · linarith)
    have hy := row_sum dom.lower.y _ eps2 eps3 _ _ Dy lo.y b.size.y (rule.y b.size.y) ly uy (by
      intro q hq
      obtain ⟨h1, h2⟩ := ry.2 q hq
      constructor
      · have : 0 ≤ (b.bounds.upper.y - b.bounds.lower.y) * q.1 := by
          refine mul_nonneg ?_ h1
          rw [uy, ly, ← hlen _ _ _ _ Dy]; exact abs_nonneg _
        linarith
      · linarith)
    have hz := row_sum dom.lower.z _ eps2 eps3 _ _ Dz lo.z b.size.z (rule.z b.size.z) lz uz (by
      intro q hq
      obtain ⟨h1, h2⟩ := rz.2 q hq
      constructor
      · have : 0 ≤ (b.bounds.upper.z - b.bounds.lower.z) * q.1 := by
          refine mul_nonneg ?_ h1
          rw [uz, lz, ← hlen _ _ _ _ Dz]; exact abs_nonneg _
        linarith
      · linarith)
    have e : ∀ a ∈ Finset.range b.size.x, ∀ b' ∈ Finset.range b.size.y, ∀ c' ∈ Finset.range b.size.z,
        sumW (elementPoints eps2 eps3 rule b.size b.bounds
          (boxUVW n dom true (toVec n ⟨lo.x + a, lo.y + b', lo.z + c'⟩ + 1 - 1))) =
        sum1 (points1D eps2 eps3 (rule.x b.size.x) b.bounds.lower.x b.bounds.upper.x
            (dom.lower.x + delta dom.lower.x dom.upper.x n.x * ((lo.x + a : Nat) : K))
            (dom.lower.x + delta dom.lower.x dom.upper.x n.x * (1 + ((lo.x + a : Nat) : K)))) *
        sum1 (points1D eps2 eps3 (rule.y b.size.y) b.bounds.lower.y b.bounds.upper.y
            (dom.lower.y + delta dom.lower.y dom.upper.y n.y * ((lo.y + b' : Nat) : K))
            (dom.lower.y + delta dom.lower.y dom.upper.y n.y * (1 + ((lo.y + b' : Nat) : K)))) *
        sum1 (points1D eps2 eps3 (rule.z b.size.z) b.bounds.lower.z b.bounds.upper.z
            (dom.lower.z + delta dom.lower.z dom.upper.z n.z * ((lo.z + c' : Nat) : K))
            (dom.lower.z + delta dom.lower.z dom.upper.z n.z * (1 + ((lo.z + c' : Nat) : K)))) := by
      intro a ha b' hb' c' hc'
      rw [hcell a b' c' (Finset.mem_range.mp ha) (Finset.mem_range.mp hb') (Finset.mem_range.mp hc')]
      unfold elementPoints
      rw [tensor_sum]
      rfl
    rw [Finset.sum_congr rfl (fun a ha => Finset.sum_congr rfl (fun b' hb' =>
      Finset.sum_congr rfl (fun c' hc' => e a ha b' hb' c' hc')))]
    simp only [← Finset.mul_sum, ← Finset.sum_mul]
    rw [hx, hy, hz]
    have sx : sum1 (rule.x b.size.x) = 1 := rx.1
    have sy : sum1 (rule.y b.size.y) = 1 := ry.1
    have sz : sum1 (rule.z b.size.z) = 1 := rz.1
    rw [sx, sy, sz, ux, lx, uy, ly, uz, lz, hlen _ _ _ _ Dx, hlen _ _ _ _ Dy, hlen _ _ _ _ Dz]
    unfold boxVolume
    rw [ux, lx, uy, ly, uz, lz]; ring
  · rw [sum_block hb]
    have e : ∀ a ∈ Finset.range b.size.x, ∀ b' ∈ Finset.range b.size.y, ∀ c' ∈ Finset.range b.size.z,
        boxVolume (boxUVW n dom true (toVec n ⟨lo.x + a, lo.y + b', lo.z + c'⟩ + 1 - 1)) =
          delta dom.lower.x dom.upper.x n.x * delta dom.lower.y dom.upper.y n.y *
            delta dom.lower.z dom.upper.z n.z := by
      intro a ha b' hb' c' hc'
      rw [hcell a b' c' (Finset.mem_range.mp ha) (Finset.mem_range.mp hb') (Finset.mem_range.mp hc'),
        cellBox_volume]
    rw [Finset.sum_congr rfl (fun a ha => Finset.sum_congr rfl (fun b' hb' =>
      Finset.sum_congr rfl (fun c' hc' => e a ha b' hb' c' hc')))]
    simp only [Finset.sum_const, Finset.card_range, nsmul_eq_mul]
    unfold boxVolume
    rw [ux, lx, uy, ly, uz, lz]
    push_cast
    ring

/-- Every point of a usable rule is given to exactly one cell of the row (here: the `k`-th of `m` cells of
width `D` starting at `a`). -/
theorem C17_point_given_once (a D eps2 eps3 : K) (hD : 0 < D) (m : Nat) (q : K × K)
    (h3 : 0 ≤ eps3) (h0 : 0 ≤ q.1) (h1 : D * m * q.1 < D * m - eps3) :
    ∃! k, k < m ∧ points1D eps2 eps3 [q] a (a + D * m) (a + D * k) (a + D * (1 + k)) ≠ [] := by
  have hm : (0 : K) ≤ D * m := mul_nonneg hD.le (Nat.cast_nonneg _)
  have key := unique_cell a D eps3 (a + D * m * q.1) hD 0 m
    (by push_cast; linarith [mul_nonneg hm h0]) (by push_cast; rw [zero_add]; linarith)
  have hiff : ∀ k : Nat, points1D eps2 eps3 [q] a (a + D * m) (a + D * k) (a + D * (1 + k)) ≠ [] ↔
      a + D * ((0 + k : Nat) : K) - eps3 ≤ a + D * m * q.1 ∧
        a + D * m * q.1 < a + D * (1 + ((0 + k : Nat) : K)) - eps3 := by
    intro k
    unfold points1D
    rw [List.filterMap_cons]
    have e : a + (a + D * (m : K) - a) * q.1 = a + D * m * q.1 := by ring
    simp only [e, Nat.zero_add]
    by_cases h : a + D * (k : K) - eps3 ≤ a + D * m * q.1 ∧ a + D * m * q.1 < a + D * (1 + (k : K)) - eps3
    · simp only [h, and_self, if_true]; simp
    · simp only [h, if_false]; simp
  simp only [hiff]
  exact key

/-- Every point handed to an element lies strictly between the element's bounds (in each direction), as long
as the tolerances are positive and the element is wider than twice the smaller one. -/
theorem C17_points_inside (eps2 eps3 L U elo eup : K) (rule : List (K × K)) (h2 : 0 < eps2) (h3 : 0 < eps3)
    (hw : 2 * eps3 < eup - elo) (p : K × K) (hp : p ∈ points1D eps2 eps3 rule L U elo eup) :
    elo < p.1 ∧ p.1 < eup := by
  unfold points1D at hp
  obtain ⟨q, _, e⟩ := List.mem_filterMap.mp hp
  simp only [] at e
  split at e
  · rename_i h
    simp only [Option.some.injEq] at e
    split at e
    · rw [← e]; simp only []; constructor <;> linarith
    · rename_i hn
      rw [← e]; simp only []; constructor <;> linarith [not_lt.mp hn]
  · simp at e

/-- The whole assembly, if the lookup never hands out wrapped elements: the weights of all points of all
untrimmed elements add up to the volume of all untrimmed elements.  Missing for the full property: the
wrapped case, in which it is false (`C17_false_of_code`). -/
theorem C17_assembly_partial (ops : List (Op α)) (n : V3 Nat) (dom : Box K) (hd : ProperBox dom) (c : Nat → K)
    (hr : ∀ i ∈ untrimmedIds ops, 1 ≤ i ∧ i ≤ numElements n)
    (hwrap : ∀ i ∈ untrimmedIds ops, ∀ d k j a, ((gridAfter ops).nextElement n .untrimmed i d).isEnd = true →
      ((gridAfter ops).nextElement n .untrimmed i d).element = .elem k j a → j = i)
    (order : List Nat) (ho : order.Perm (untrimmedIds ops)) (fuel : Nat) (bs : List (Block K))
    (hf : (untrimmedIds ops).length ≤ fuel)
    (hb : blocks (gridAfter ops) n (fun id => boxUVW n dom true (id - 1)) c fuel order [] = .ok bs)
    (eps2 eps3 : K) (h3 : 0 ≤ eps3) (rule : V3 (Nat → List (K × K)))
    (hrule : ∀ b ∈ bs, GoodRule eps3 (b.bounds.upper.x - b.bounds.lower.x) (rule.x b.size.x) ∧
      GoodRule eps3 (b.bounds.upper.y - b.bounds.lower.y) (rule.y b.size.y) ∧
      GoodRule eps3 (b.bounds.upper.z - b.bounds.lower.z) (rule.z b.size.z)) :
    (bs.map (fun b => totalWeight (assembleBlock eps2 eps3 rule (fun id => boxUVW n dom true (id - 1)) b))).sum =
      ((untrimmedIds ops).map (fun id => boxVolume (boxUVW n dom true (id - 1)))).sum := by
  obtain ⟨bs', e1, e2⟩ := C15_blocks_partition ops n (fun id => boxUVW n dom true (id - 1)) c hr order ho fuel hf
  rw [e1] at hb
  simp only [Res.ok.injEq] at hb
  subst hb
  have hcub := C16_cuboids_partial ops n dom c hr hwrap order ho fuel bs' hf e1
  rw [← (e2.map _).sum_eq]
  have hblock : ∀ b ∈ bs', totalWeight (assembleBlock eps2 eps3 rule (fun id => boxUVW n dom true (id - 1)) b) =
      (b.elems.map (fun id => boxVolume (boxUVW n dom true (id - 1)))).sum := by
    intro b hb
    obtain ⟨lo, q1, q2, q3, q4⟩ := hcub b hb
    obtain ⟨r1, r2, r3⟩ := hrule b hb
    obtain ⟨s1, s2⟩ := C17_block_weights n lo dom hd b q1 q2 q3 q4 eps2 eps3 h3 rule r1 r2 r3
    rw [s1, s2]
  rw [List.map_congr_left hblock]
  clear e1 e2 hcub hrule hblock
  induction bs' with
  | nil => simp
  | cons b t ih => simp [List.flatMap_cons, ih]

end Cuboids

/-- A rule with weights adding up to one: the midpoint of every knot span. -/
def midpoints (m : Nat) : List (ℚ × ℚ) :=
  (List.range m).map (fun k => (((2 * k + 1 : Nat) : ℚ) / ((2 * m : Nat) : ℚ), 1 / (m : ℚ)))

/-- FALSE of the code on the 2×2×1 example with three untrimmed elements of volume 1: with the midpoint rule
(whose weights add up to one for every number of spans) the weights that are handed out do not add up to
the volume of the three elements. -/
theorem C17_false_of_code :
    (cornerBlocks.map (fun b => totalWeight (assembleBlock (1 / 10 ^ 10) (1 / 10 ^ 12)
      ⟨midpoints, midpoints, midpoints⟩ (fun id => boxUVW cornerSize cornerDom true (id - 1)) b))).sum ≠
    ((untrimmedIds cornerOps).map (fun id => boxVolume (boxUVW cornerSize cornerDom true (id - 1)))).sum := by
  decide +kernel

/-- A point at the end of the interval is lost: the hypothesis on the points of the rule is needed. -/
theorem C17_endpoint_lost :
    points1D (1 / 10 ^ 10) (1 / 10 ^ 12) [((1 : ℚ), 1)] 0 1 0 1 = [] := by
  decide +kernel

example : GoodRule (1 / 10 ^ 12) (3 : ℚ) (midpoints 3) := by
  unfold GoodRule
  decide +kernel

/-! ## C18 Neighbour coefficients -/

section Coeff
variable [IsStrictOrderedRing K]

/-- For every row of at least two elements and every position in it the weight is defined (no error is
raised), at least a tenth of the row length and at most the row length. -/
theorem C18_linear_function (tol : K) (x num : Nat) (hn : 2 ≤ num) (hx : x < num) (ht : tol ≤ 1 / 5) :
    ∃ v, linearFunction tol x num = some v ∧ (num : K) / 10 ≤ v ∧ v ≤ (num : K) := by
  apply linearFunction_bound tol x num hn hx
  have : (2 : K) ≤ (num : K) := by exact_mod_cast hn
  linarith

/-- The computation of the coefficients ends without error, and all coefficients are positive; for every
grid and every set of untrimmed elements. -/
theorem C18_coefficients_positive (ops : List (Op α)) (n : V3 Nat) (hnum : 1 ≤ numElements n) (tol : K)
    (ht : tol ≤ 1 / 5) (hr : ∀ i ∈ untrimmedIds ops, 1 ≤ i ∧ i ≤ numElements n) (fuel : Nat) (hf : numElements n ≤ fuel) :
    ∃ c, computeCoefficients (gridAfter ops) n tol fuel = .ok c ∧ ∀ i, 0 < c i :=
  computeCoefficients_ok (wf_of_range ops n hr) tol ht hnum fuel hf

/-- A row of one element would be a division by zero; it is never passed on. -/
theorem C18_single_row_unchanged (tol : K) (i : Nat) (c : Nat → K) : assign tol [i] c = some c := rfl

end Coeff

example : linearFunction tol14 0 3 = some (3 / 10) ∧ linearFunction tol14 1 3 = some 3 := by decide +kernel

/-- Observation: if the first cell of the grid holds no untrimmed element, the last untrimmed element is not
reached by the coefficient walk, so the ranking depends on where the elements lie in the grid: the same
row of two elements gets other coefficients when it is shifted by one cell. -/
theorem C18_not_shift_invariant :
    (match computeCoefficients (gridAfter [Op.make .untrimmed 1 (some ()), .make .untrimmed 2 (some ())])
        ⟨3, 1, 1⟩ tol14 3 with
      | .ok c => [c 1, c 2] | _ => []) = [(1 / 125 : ℚ), 1 / 125] ∧
    (match computeCoefficients (gridAfter [Op.make .untrimmed 2 (some ()), .make .untrimmed 3 (some ())])
        ⟨3, 1, 1⟩ tol14 3 with
      | .ok c => [c 2, c 3] | _ => []) = [(1 : ℚ), 1] := by
  decide +kernel

end QuESo.Props
