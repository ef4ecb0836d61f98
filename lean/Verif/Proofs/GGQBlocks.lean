import Verif.Proofs.MultipleElements
import Verif.Spec.Blocks
import Mathlib.Data.Finset.Card
import Mathlib.Data.Finset.Prod
import Mathlib.Order.Interval.Finset.Nat
import Mathlib.Tactic.Linarith
import Mathlib.Tactic.Ring

/-! # GGQ blocks are cuboids if no wrapped neighbour is handed out -/
namespace QuESo.GGQ
open QuESo.BGrid QuESo.Grid QuESo.Spec QuESo.Props

variable {α : Type _} {K : Type _} [Field K] [LinearOrder K]

theorem hasId_iff (n v : V3 Nat) (id : Nat) : HasId n v id ↔ id = toVec n v + 1 := by
  unfold HasId toVec
  constructor <;> intro h <;> rw [h] <;> ring

/-- Whenever the neighbour lookup from an untrimmed element reports 'end', it hands out no other
element. -/
def NoWrap (s : State α) (n : V3 Nat) : Prop :=
  ∀ i ∈ ids s, ∀ d, (s.nextElement n .untrimmed i d).isEnd = true →
    pNext s n i d = none ∨ pNext s n i d = some i

/-- The ids of a block as a finite set. -/
def blkIds (n lo size : V3 Nat) : Finset Nat :=
  (Finset.range size.x ×ˢ Finset.range size.y ×ˢ Finset.range size.z).image
    (fun p => toVec n ⟨lo.x + p.1, lo.y + p.2.1, lo.z + p.2.2⟩ + 1)

theorem mem_blkIds (n lo size : V3 Nat) (id : Nat) :
    id ∈ blkIds n lo size ↔ ∃ v, InBlk lo size v ∧ HasId n v id := by
  unfold blkIds InBlk
  simp only [Finset.mem_image, Finset.mem_product, Finset.mem_range]
  constructor
  · rintro ⟨⟨a, b, c⟩, ⟨h1, h2, h3⟩, rfl⟩
    simp only at h1 h2 h3
    exact ⟨⟨lo.x + a, lo.y + b, lo.z + c⟩,
      ⟨⟨by simp only []; omega, by simp only []; omega⟩, ⟨by simp only []; omega, by simp only []; omega⟩,
        ⟨by simp only []; omega, by simp only []; omega⟩⟩, (hasId_iff _ _ _).mpr rfl⟩
  · rintro ⟨v, ⟨⟨a1, a2⟩, ⟨b1, b2⟩, ⟨c1, c2⟩⟩, h⟩
    refine ⟨⟨v.x - lo.x, v.y - lo.y, v.z - lo.z⟩, ⟨by simp only []; omega, by simp only []; omega,
      by simp only []; omega⟩, ?_⟩
    rw [(hasId_iff _ _ _).mp h]
    have : (⟨lo.x + (v.x - lo.x), lo.y + (v.y - lo.y), lo.z + (v.z - lo.z)⟩ : V3 Nat) = v :=
      V3.ext' (by simp only []; omega) (by simp only []; omega) (by simp only []; omega)
    simp only [this]

theorem card_blkIds_le (n lo size : V3 Nat) : (blkIds n lo size).card ≤ size.x * size.y * size.z := by
  refine Finset.card_image_le.trans ?_
  simp only [Finset.card_product, Finset.card_range, Nat.mul_assoc, le_refl]

/-- A list without repetitions inside a set that is not larger is the whole set. -/
theorem eq_of_length {N : List Nat} {S : Finset Nat} (hn : N.Nodup) (hs : ∀ j ∈ N, j ∈ S)
    (hc : S.card ≤ N.length) : ∀ j, j ∈ N ↔ j ∈ S := by
  have h1 : N.toFinset ⊆ S := fun j hj => hs j (List.mem_toFinset.mp hj)
  have h2 : N.toFinset.card = N.length := List.toFinset_card_of_nodup hn
  have h3 := Finset.eq_of_subset_of_card_le h1 (by rw [h2]; exact hc)
  intro j
  rw [← h3, List.mem_toFinset]

/-- A candidate of the growth step is the id of a grid cell that is a geometric neighbour of a cell of the
block. -/
theorem candidate_spec {s : State α} {n : V3 Nat} (h : WF s n) (hw : NoWrap s n) {V : List Nat} {b : Block K}
    (hg : GInv s V b) {lo : V3 Nat} (hb : IsBlock n lo b.size b.elems) {d : Dir} {j : Nat}
    (hj : j ∈ neighbours s n V b.elems d) :
    ∃ v w, InBlk lo b.size v ∧ Neighbour d v w ∧ InGrid n w ∧ HasId n w j ∧ ¬ InBlk lo b.size w := by
  obtain ⟨i, hi, e, hjid, hjV⟩ := (mem_neighbours h).mp hj
  have hiV := hg.bsub i hi
  have hiU := hg.vsub i hiV
  obtain ⟨r1, r2⟩ := h.range i hiU
  obtain ⟨v, hv, hvi⟩ := (hb.2.2 i).mp hi
  have hvg : InGrid n v := by
    obtain ⟨⟨b1, b2, b3⟩, _⟩ := hb
    obtain ⟨⟨a1, a2⟩, ⟨a3, a4⟩, ⟨a5, a6⟩⟩ := hv
    exact ⟨by omega, by omega, by omega⟩
  have hmv : toMat n (i - 1) = v := by
    rw [(hasId_iff _ _ _).mp hvi, Nat.add_sub_cancel, toMat_toVec n v hvg]
  have hp : pNext s n i d = some j := by rw [pNext_eq h, e, if_pos hjid]
  have hend : (s.nextElement n .untrimmed i d).isEnd = false := by
    rw [Bool.eq_false_iff]
    intro hc
    rcases hw i hiU d hc with h1 | h1
    · rw [h1] at hp; simp at hp
    · rw [h1] at hp; simp at hp; rw [← hp] at hjV; exact hjV hiV
  have hmid : (nextGlobal n d (i - 1)).2 = .middle := by
    have : (s.nextElement n .untrimmed i d).isEnd =
        if !(s.nextElement n .untrimmed i d).element.present then true
        else ((nextGlobal n d (i - 1)).2 != .middle) := rfl
    rw [this] at hend
    split at hend
    · simp at hend
    · simpa using hend
  obtain ⟨hvp, hin⟩ := id_sub_inPart n i r1 r2
  have hnb := (C02_middle_is_neighbour n _ hvp d (i - 1) hin).2 hmid
  rw [hmv] at hnb
  have hst := C02_step_stays n _ hvp d (i - 1) hin
  refine ⟨v, _, hv, hnb, inGrid_of_inPart hvp hst, ?_, ?_⟩
  · rw [hasId_iff, toVec_toMat, ← e]; rfl
  · intro hc
    apply hjV
    apply hg.bsub
    refine (hb.2.2 j).mpr ⟨_, hc, ?_⟩
    rw [hasId_iff, toVec_toMat, ← e]; rfl

/-- First cell of the layer that is added in direction `d`. -/
def slabLo (lo size : V3 Nat) : Dir → V3 Nat
  | .xf => { lo with x := lo.x + size.x }
  | .xb => { lo with x := lo.x - 1 }
  | .yf => { lo with y := lo.y + size.y }
  | .yb => { lo with y := lo.y - 1 }
  | .zf => { lo with z := lo.z + size.z }
  | .zb => { lo with z := lo.z - 1 }

/-- Size of the layer. -/
def slabSize (size : V3 Nat) : Dir → V3 Nat
  | .xf | .xb => { size with x := 1 }
  | .yf | .yb => { size with y := 1 }
  | .zf | .zb => { size with z := 1 }

/-- First cell of the grown block. -/
def newLo (lo : V3 Nat) : Dir → V3 Nat
  | .xf | .yf | .zf => lo
  | .xb => { lo with x := lo.x - 1 }
  | .yb => { lo with y := lo.y - 1 }
  | .zb => { lo with z := lo.z - 1 }

/-- Is there room for the layer below? -/
def roomBelow (lo : V3 Nat) : Dir → Prop
  | .xf | .yf | .zf => True
  | .xb => 1 ≤ lo.x
  | .yb => 1 ≤ lo.y
  | .zb => 1 ≤ lo.z

theorem neighbour_in_slab {lo size v w : V3 Nat} {d : Dir} (hv : InBlk lo size v) (hn : Neighbour d v w)
    (hw : ¬ InBlk lo size w) : InBlk (slabLo lo size d) (slabSize size d) w ∧ roomBelow lo d := by
  obtain ⟨⟨a1, a2⟩, ⟨a3, a4⟩, ⟨a5, a6⟩⟩ := hv
  cases d <;> simp only [Neighbour, InBlk, slabLo, slabSize, roomBelow] at * <;>
    (constructor
     · refine ⟨⟨?_, ?_⟩, ⟨?_, ?_⟩, ⟨?_, ?_⟩⟩ <;> first | omega
     · first | trivial | omega)

theorem newBlk_iff {lo size w : V3 Nat} {d : Dir} (hr : roomBelow lo d) :
    InBlk (newLo lo d) (bump size d) w ↔ InBlk lo size w ∨ InBlk (slabLo lo size d) (slabSize size d) w := by
  cases d <;> simp only [InBlk, slabLo, slabSize, roomBelow, newLo, bump] at * <;> omega

theorem slab_card (size : V3 Nat) (d : Dir) :
    (slabSize size d).x * (slabSize size d).y * (slabSize size d).z = required size d := by
  cases d <;> simp [slabSize, required]

/-- One growth step turns a block into a block; the added cells are exactly one layer. -/
theorem grow_block {s : State α} {n : V3 Nat} (h : WF s n) (hw : NoWrap s n) {V : List Nat} {b : Block K}
    (hg : GInv s V b) {lo : V3 Nat} (hb : IsBlock n lo b.size b.elems) {d : Dir}
    (hl : (neighbours s n V b.elems d).length = required b.size d) :
    IsBlock n (newLo lo d) (bump b.size d) (b.elems ++ neighbours s n V b.elems d) ∧ roomBelow lo d ∧
    (∀ j ∈ neighbours s n V b.elems d, ∃ w, InBlk (slabLo lo b.size d) (slabSize b.size d) w ∧
        InGrid n w ∧ HasId n w j) := by
  have hnn := neighbours_nodup (d := d) h hg.bnodup hg.bsub hg.vsub
  have hcand : ∀ j ∈ neighbours s n V b.elems d,
      (∃ w, InBlk (slabLo lo b.size d) (slabSize b.size d) w ∧ InGrid n w ∧ HasId n w j) ∧ roomBelow lo d := by
    intro j hj
    obtain ⟨v, w, h1, h2, h3, h4, h5⟩ := candidate_spec h hw hg hb hj
    obtain ⟨h6, h7⟩ := neighbour_in_slab h1 h2 h5
    exact ⟨⟨w, h6, h3, h4⟩, h7⟩
  have hset : ∀ j, j ∈ neighbours s n V b.elems d ↔ j ∈ blkIds n (slabLo lo b.size d) (slabSize b.size d) := by
    apply eq_of_length hnn
    · intro j hj
      obtain ⟨⟨w, h1, _, h2⟩, _⟩ := hcand j hj
      exact (mem_blkIds _ _ _ _).mpr ⟨w, h1, h2⟩
    · rw [hl, ← slab_card]; exact card_blkIds_le _ _ _
  have hpos := required_pos hg.pos d
  have hne : ∃ j, j ∈ neighbours s n V b.elems d := by
    apply List.exists_mem_of_length_pos
    omega
  obtain ⟨j0, hj0⟩ := hne
  obtain ⟨⟨w0, hw0, hwg0, _⟩, hroom⟩ := hcand j0 hj0
  refine ⟨⟨?_, ?_, ?_⟩, hroom, fun j hj => (hcand j hj).1⟩
  · obtain ⟨⟨b1, b2, b3⟩, _⟩ := hb
    obtain ⟨⟨a1, a2⟩, ⟨a3, a4⟩, ⟨a5, a6⟩⟩ := hw0
    obtain ⟨c1, c2, c3⟩ := hwg0
    cases d <;> simp only [slabLo, slabSize, newLo, bump, roomBelow] at * <;> omega
  · refine List.nodup_append'.mpr ⟨hg.bnodup, hnn, fun x hx hx' => ?_⟩
    obtain ⟨_, _, _, _, h2⟩ := (mem_neighbours h).mp hx'
    exact h2 (hg.bsub x hx)
  · intro id
    rw [List.mem_append, hb.2.2, hset, mem_blkIds]
    constructor
    · rintro (⟨v, h1, h2⟩ | ⟨v, h1, h2⟩)
      · exact ⟨v, (newBlk_iff hroom).mpr (Or.inl h1), h2⟩
      · exact ⟨v, (newBlk_iff hroom).mpr (Or.inr h1), h2⟩
    · rintro ⟨v, h1, h2⟩
      rcases (newBlk_iff hroom).mp h1 with h1 | h1
      · exact Or.inl ⟨v, h1, h2⟩
      · exact Or.inr ⟨v, h1, h2⟩

/-! ### Bounds -/

theorem foldl_hull_faces (cell : Nat → Box K) (l : List Nat) : ∀ (b : Box K),
    (l.foldl (fun acc j => hull acc (cell j)) b).lower.x = l.foldl (fun a j => min a (cell j).lower.x) b.lower.x ∧
    (l.foldl (fun acc j => hull acc (cell j)) b).lower.y = l.foldl (fun a j => min a (cell j).lower.y) b.lower.y ∧
    (l.foldl (fun acc j => hull acc (cell j)) b).lower.z = l.foldl (fun a j => min a (cell j).lower.z) b.lower.z ∧
    (l.foldl (fun acc j => hull acc (cell j)) b).upper.x = l.foldl (fun a j => max a (cell j).upper.x) b.upper.x ∧
    (l.foldl (fun acc j => hull acc (cell j)) b).upper.y = l.foldl (fun a j => max a (cell j).upper.y) b.upper.y ∧
    (l.foldl (fun acc j => hull acc (cell j)) b).upper.z = l.foldl (fun a j => max a (cell j).upper.z) b.upper.z := by
  induction l with
  | nil => intro b; simp
  | cons i t ih => intro b; simp only [List.foldl_cons]; exact ih (hull b (cell i))

theorem foldl_min_keep {g : Nat → K} {l : List Nat} {a : K} (h : ∀ j ∈ l, a ≤ g j) :
    l.foldl (fun a j => min a (g j)) a = a := by
  induction l with
  | nil => rfl
  | cons i t ih =>
    rw [List.foldl_cons, min_eq_left (h i (by simp))]
    exact ih (fun j hj => h j (List.mem_cons_of_mem _ hj))

theorem foldl_min_new {g : Nat → K} {l : List Nat} {a t : K} (hne : l ≠ []) (h : ∀ j ∈ l, g j = t) (ht : t ≤ a) :
    l.foldl (fun a j => min a (g j)) a = t := by
  cases l with
  | nil => exact absurd rfl hne
  | cons i r =>
    rw [List.foldl_cons, h i (by simp), min_eq_right ht]
    exact foldl_min_keep (fun j hj => (h j (List.mem_cons_of_mem _ hj)).ge)

theorem foldl_max_keep {g : Nat → K} {l : List Nat} {a : K} (h : ∀ j ∈ l, g j ≤ a) :
    l.foldl (fun a j => max a (g j)) a = a := by
  induction l with
  | nil => rfl
  | cons i t ih =>
    rw [List.foldl_cons, max_eq_left (h i (by simp))]
    exact ih (fun j hj => h j (List.mem_cons_of_mem _ hj))

theorem foldl_max_new {g : Nat → K} {l : List Nat} {a t : K} (hne : l ≠ []) (h : ∀ j ∈ l, g j = t) (ht : a ≤ t) :
    l.foldl (fun a j => max a (g j)) a = t := by
  cases l with
  | nil => exact absurd rfl hne
  | cons i r =>
    rw [List.foldl_cons, h i (by simp), max_eq_right ht]
    exact foldl_max_keep (fun j hj => (h j (List.mem_cons_of_mem _ hj)).le)

variable [IsStrictOrderedRing K]

/-- Lower corner of the box of the first cell, upper corner of the box of the last cell. -/
def blkBounds (n : V3 Nat) (dom : Box K) (lo size : V3 Nat) : Box K :=
  ⟨(cellBox n dom lo).lower,
    (cellBox n dom ⟨lo.x + size.x - 1, lo.y + size.y - 1, lo.z + size.z - 1⟩).upper⟩

theorem delta_nonneg' (lo up : K) (m : Nat) : 0 ≤ delta lo up m :=
  div_nonneg (abs_nonneg _) (Nat.cast_nonneg _)

theorem knot_mono (lo up : K) (m : Nat) {a b : Nat} (h : a ≤ b) :
    lo + delta lo up m * (a : K) ≤ lo + delta lo up m * (b : K) := by
  have := mul_le_mul_of_nonneg_left (Nat.cast_le (α := K).mpr h) (delta_nonneg' lo up m)
  linarith

theorem knot_mono' (lo up : K) (m : Nat) {a b : Nat} (h : a ≤ b) :
    lo + delta lo up m * (1 + (a : K)) ≤ lo + delta lo up m * (1 + (b : K)) := by
  have := knot_mono lo up m (Nat.add_le_add_left h 1)
  push_cast at this
  exact this

theorem grow_bounds {n : V3 Nat} {dom : Box K} {cell : Nat → Box K} {lo size : V3 Nat} {d : Dir} {N : List Nat}
    (hpos : 1 ≤ size.x ∧ 1 ≤ size.y ∧ 1 ≤ size.z) (hroom : roomBelow lo d) (hne : N ≠ [])
    (hN : ∀ j ∈ N, ∃ w, InBlk (slabLo lo size d) (slabSize size d) w ∧ cell j = cellBox n dom w) :
    N.foldl (fun acc j => hull acc (cell j)) (blkBounds n dom lo size) =
      blkBounds n dom (newLo lo d) (bump size d) := by
  obtain ⟨p1, p2, p3⟩ := hpos
  obtain ⟨f1, f2, f3, f4, f5, f6⟩ := foldl_hull_faces cell N (blkBounds n dom lo size)
  have ext : ∀ a b : Box K, a.lower.x = b.lower.x → a.lower.y = b.lower.y → a.lower.z = b.lower.z →
      a.upper.x = b.upper.x → a.upper.y = b.upper.y → a.upper.z = b.upper.z → a = b := by
    rintro ⟨⟨_, _, _⟩, ⟨_, _, _⟩⟩ ⟨⟨_, _, _⟩, ⟨_, _, _⟩⟩ h1 h2 h3 h4 h5 h6
    simp only at h1 h2 h3 h4 h5 h6
    subst h1 h2 h3 h4 h5 h6
    rfl
  apply ext
  · rw [f1]
    cases d
    case xb =>
      apply foldl_min_new hne
      · intro j hj
        obtain ⟨w, ⟨⟨a1, a2⟩, _⟩, e⟩ := hN j hj
        rw [e]
        simp only [slabLo, slabSize, blkBounds, newLo, cellBox] at *
        have : w.x = lo.x - 1 := by omega
        rw [this]
      · simp only [blkBounds, newLo, cellBox]
        exact knot_mono _ _ _ (by omega)
    all_goals
      apply foldl_min_keep
      intro j hj
      obtain ⟨w, ⟨⟨a1, a2⟩, _⟩, e⟩ := hN j hj
      rw [e]
      simp only [slabLo, slabSize, blkBounds, cellBox] at *
      exact knot_mono _ _ _ (by omega)
  · rw [f2]
    cases d
    case yb =>
      apply foldl_min_new hne
      · intro j hj
        obtain ⟨w, ⟨_, ⟨a1, a2⟩, _⟩, e⟩ := hN j hj
        rw [e]
        simp only [slabLo, slabSize, blkBounds, newLo, cellBox] at *
        have : w.y = lo.y - 1 := by omega
        rw [this]
      · simp only [blkBounds, newLo, cellBox]
        exact knot_mono _ _ _ (by omega)
    all_goals
      apply foldl_min_keep
      intro j hj
      obtain ⟨w, ⟨_, ⟨a1, a2⟩, _⟩, e⟩ := hN j hj
      rw [e]
      simp only [slabLo, slabSize, blkBounds, cellBox] at *
      exact knot_mono _ _ _ (by omega)
  · rw [f3]
    cases d
    case zb =>
      apply foldl_min_new hne
      · intro j hj
        obtain ⟨w, ⟨_, _, ⟨a1, a2⟩⟩, e⟩ := hN j hj
        rw [e]
        simp only [slabLo, slabSize, blkBounds, newLo, cellBox] at *
        have : w.z = lo.z - 1 := by omega
        rw [this]
      · simp only [blkBounds, newLo, cellBox]
        exact knot_mono _ _ _ (by omega)
    all_goals
      apply foldl_min_keep
      intro j hj
      obtain ⟨w, ⟨_, _, ⟨a1, a2⟩⟩, e⟩ := hN j hj
      rw [e]
      simp only [slabLo, slabSize, blkBounds, cellBox] at *
      exact knot_mono _ _ _ (by omega)
  · rw [f4]
    cases d
    case xf =>
      apply foldl_max_new hne
      · intro j hj
        obtain ⟨w, ⟨⟨a1, a2⟩, _⟩, e⟩ := hN j hj
        rw [e]
        simp only [slabLo, slabSize, blkBounds, newLo, bump, cellBox] at *
        have : w.x = lo.x + (size.x + 1) - 1 := by omega
        rw [this]
      · simp only [blkBounds, newLo, bump, cellBox]
        exact knot_mono' _ _ _ (by omega)
    all_goals
      refine Eq.trans (foldl_max_keep ?_) ?_
      · intro j hj
        obtain ⟨w, ⟨⟨a1, a2⟩, _⟩, e⟩ := hN j hj
        rw [e]
        simp only [slabLo, slabSize, blkBounds, roomBelow, cellBox] at *
        exact knot_mono' _ _ _ (by omega)
      · simp only [blkBounds, newLo, bump, cellBox, roomBelow] at *
        try (congr 4; omega)
  · rw [f5]
    cases d
    case yf =>
      apply foldl_max_new hne
      · intro j hj
        obtain ⟨w, ⟨_, ⟨a1, a2⟩, _⟩, e⟩ := hN j hj
        rw [e]
        simp only [slabLo, slabSize, blkBounds, newLo, bump, cellBox] at *
        have : w.y = lo.y + (size.y + 1) - 1 := by omega
        rw [this]
      · simp only [blkBounds, newLo, bump, cellBox]
        exact knot_mono' _ _ _ (by omega)
    all_goals
      refine Eq.trans (foldl_max_keep ?_) ?_
      · intro j hj
        obtain ⟨w, ⟨_, ⟨a1, a2⟩, _⟩, e⟩ := hN j hj
        rw [e]
        simp only [slabLo, slabSize, blkBounds, roomBelow, cellBox] at *
        exact knot_mono' _ _ _ (by omega)
      · simp only [blkBounds, newLo, bump, cellBox, roomBelow] at *
        try (congr 4; omega)
  · rw [f6]
    cases d
    case zf =>
      apply foldl_max_new hne
      · intro j hj
        obtain ⟨w, ⟨_, _, ⟨a1, a2⟩⟩, e⟩ := hN j hj
        rw [e]
        simp only [slabLo, slabSize, blkBounds, newLo, bump, cellBox] at *
        have : w.z = lo.z + (size.z + 1) - 1 := by omega
        rw [this]
      · simp only [blkBounds, newLo, bump, cellBox]
        exact knot_mono' _ _ _ (by omega)
    all_goals
      refine Eq.trans (foldl_max_keep ?_) ?_
      · intro j hj
        obtain ⟨w, ⟨_, _, ⟨a1, a2⟩⟩, e⟩ := hN j hj
        rw [e]
        simp only [slabLo, slabSize, blkBounds, roomBelow, cellBox] at *
        exact knot_mono' _ _ _ (by omega)
      · simp only [blkBounds, newLo, bump, cellBox, roomBelow] at *
        try (congr 4; omega)

end QuESo.GGQ
