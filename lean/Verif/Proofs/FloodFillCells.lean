import Verif.Proofs.FloodFillMerge

/-! # Cells, merged groups and votes -/
namespace QuESo.Flood
open QuESo.Grid QuESo.Spec

/-! ## Steps along the partition direction -/

def PD (pd : Nat) : Prop := pd = 0 ∨ pd = 1 ∨ pd = 2

theorem reverse_fwd {pd : Nat} (h : PD pd) : reverse (fwd pd) = bwd pd := by
  rcases h with rfl | rfl | rfl <;> rfl

theorem reverse_bwd {pd : Nat} (h : PD pd) : reverse (bwd pd) = fwd pd := by
  rcases h with rfl | rfl | rfl <;> rfl

theorem neighbour_reverse {d : Dir} {v w : V3 Nat} (h : Neighbour d v w) : Neighbour (reverse d) w v := by
  cases d <;> simp only [Neighbour, reverse] at h ⊢ <;> omega

theorem fwd_coord {pd : Nat} (h : PD pd) {v w : V3 Nat} (hn : Neighbour (fwd pd) v w) : coord pd w = coord pd v + 1 := by
  rcases h with rfl | rfl | rfl <;> exact hn.1

theorem bwd_coord {pd : Nat} (h : PD pd) {v w : V3 Nat} (hn : Neighbour (bwd pd) v w) : coord pd v = coord pd w + 1 := by
  rcases h with rfl | rfl | rfl <;> exact hn.1

theorem other_coord {pd : Nat} (h : PD pd) {d : Dir} (h1 : d ≠ fwd pd) (h2 : d ≠ bwd pd) {v w : V3 Nat}
    (hn : Neighbour d v w) : coord pd w = coord pd v := by
  rcases h with rfl | rfl | rfl <;> cases d <;> simp [fwd, bwd] at h1 h2 <;> simp only [Neighbour] at hn <;>
    simp only [coord, V3.get] <;> omega

theorem valid_global {n : V3 Nat} (hn : InGrid n ⟨0, 0, 0⟩) : ValidPart n (globalPartition n) := by
  obtain ⟨h1, h2, h3⟩ := hn
  simp only at h1 h2 h3
  simp only [ValidPart, globalPartition]
  omega

theorem inP_global {n : V3 Nat} (hn : InGrid n ⟨0, 0, 0⟩) {i : Nat} : inP n (globalPartition n) i ↔ i < numElements n := by
  rw [← grid_iff hn]
  obtain ⟨h1, h2, h3⟩ := hn
  simp only at h1 h2 h3
  simp only [inP, InPart, globalPartition, InGrid]
  omega

theorem next_fwd_mid {n : V3 Nat} {p : Partition} {pd : Nat} (h : PD pd) {i : Nat} (hi : inP n p i) :
    (next n p (fwd pd) i).2 = .middle ↔ coord pd (toMat n i) ≠ coord pd p.second := by
  rw [next_eq]
  obtain ⟨⟨_, _⟩, ⟨_, _⟩, ⟨_, _⟩⟩ := hi
  rcases h with rfl | rfl | rfl <;>
    (first | rw [show fwd 0 = Dir.xf from rfl] | rw [show fwd 1 = Dir.yf from rfl] | rw [show fwd 2 = Dir.zf from rfl]) <;>
    simp only [stepV, coord, V3.get] <;>
    split_ifs <;> constructor <;> intro hh <;> first | omega | rfl | cases hh

theorem next_bwd_mid {n : V3 Nat} {p : Partition} {pd : Nat} (h : PD pd) {i : Nat} (hi : inP n p i) :
    (next n p (bwd pd) i).2 = .middle ↔ coord pd (toMat n i) ≠ coord pd p.first := by
  rw [next_eq]
  obtain ⟨⟨_, _⟩, ⟨_, _⟩, ⟨_, _⟩⟩ := hi
  rcases h with rfl | rfl | rfl <;>
    (first | rw [show bwd 0 = Dir.xb from rfl] | rw [show bwd 1 = Dir.yb from rfl] | rw [show bwd 2 = Dir.zb from rfl]) <;>
    simp only [stepV, coord, V3.get] <;>
    split_ifs <;> constructor <;> intro hh <;> first | omega | rfl | cases hh

theorem fwd_mid {n : V3 Nat} (hn : InGrid n ⟨0, 0, 0⟩) {pd : Nat} (h : PD pd) {i : Nat} (hi : i < numElements n) :
    (nextGlobal n (fwd pd) i).2 = .middle ↔ coord pd (toMat n i) + 1 < coord pd n := by
  rw [nextGlobal, next_fwd_mid h ((inP_global hn).2 hi)]
  have hg := toMat_inGrid n i hi
  obtain ⟨h1, h2, h3⟩ := hn
  obtain ⟨g1, g2, g3⟩ := hg
  simp only at h1 h2 h3
  rcases h with rfl | rfl | rfl <;> simp only [coord, V3.get, globalPartition] <;> omega

theorem bwd_mid {n : V3 Nat} (hn : InGrid n ⟨0, 0, 0⟩) {pd : Nat} (h : PD pd) {i : Nat} (hi : i < numElements n) :
    (nextGlobal n (bwd pd) i).2 = .middle ↔ 0 < coord pd (toMat n i) := by
  rw [nextGlobal, next_bwd_mid h ((inP_global hn).2 hi)]
  rcases h with rfl | rfl | rfl <;> simp only [coord, V3.get, globalPartition] <;> omega

theorem global_next {n : V3 Nat} (hn : InGrid n ⟨0, 0, 0⟩) {d : Dir} {i j : Nat} (hi : i < numElements n)
    (hj : j < numElements n) (h : Neighbour d (toMat n i) (toMat n j)) : nextGlobal n d i = (j, .middle) :=
  next_of_neighbour ((inP_global hn).2 hi) ((inP_global hn).2 hj) h

theorem global_next_inv {n : V3 Nat} (hn : InGrid n ⟨0, 0, 0⟩) {d : Dir} {i : Nat} (hi : i < numElements n)
    (h : (nextGlobal n d i).2 = .middle) :
    (nextGlobal n d i).1 < numElements n ∧ Neighbour d (toMat n i) (toMat n (nextGlobal n d i).1) := by
  obtain ⟨h1, h2⟩ := next_mid (valid_global hn) ((inP_global hn).2 hi) h
  exact ⟨(inP_global hn).1 h1, h2⟩

/-! ## Boundary cells of a group -/

def eligU (G : Geo) (n : V3 Nat) (pd i : Nat) : Prop := G.trimP (nextGlobal n (fwd pd) i).1 (fwd pd) = false
def eligL (G : Geo) (n : V3 Nat) (pd i : Nat) : Prop := G.trimP (nextGlobal n (bwd pd) i).1 (bwd pd) = false

def upHalf (G : Geo) (n : V3 Nat) (pd : Nat) (b : Bnd) (i : Nat) : Bnd :=
  if b.upBox ≤ (coord pd (toMat n i) : Int) ∧ (!G.trimP (nextGlobal n (fwd pd) i).1 (fwd pd)) = true then
    if b.upBox < (coord pd (toMat n i) : Int) then { b with upBox := (coord pd (toMat n i) : Int), up := [i] } else { b with up := i :: b.up }
  else b

def lowHalf (G : Geo) (n : V3 Nat) (pd : Nat) (b1 : Bnd) (i : Nat) : Bnd :=
  if (coord pd (toMat n i) : Int) ≤ b1.lowBox ∧ (!G.trimP (nextGlobal n (bwd pd) i).1 (bwd pd)) = true then
    if (coord pd (toMat n i) : Int) < b1.lowBox then { b1 with lowBox := (coord pd (toMat n i) : Int), low := [i] } else { b1 with low := i :: b1.low }
  else b1

theorem bndStep_eq (G : Geo) (n : V3 Nat) (pd : Nat) (b : Bnd) (i : Nat) :
    bndStep G n pd b i = lowHalf G n pd (upHalf G n pd b i) i := rfl

theorem lowHalf_up (G n pd b i) : (lowHalf G n pd b i).up = b.up ∧ (lowHalf G n pd b i).upBox = b.upBox := by
  unfold lowHalf; split_ifs <;> exact ⟨rfl, rfl⟩

theorem upHalf_low (G n pd b i) : (upHalf G n pd b i).low = b.low ∧ (upHalf G n pd b i).lowBox = b.lowBox := by
  unfold upHalf; split_ifs <;> exact ⟨rfl, rfl⟩

structure BInv (G : Geo) (n : V3 Nat) (pd : Nat) (L : List Nat) (b : Bnd) : Prop where
  up : ∀ i ∈ b.up, i ∈ L ∧ eligU G n pd i ∧ (coord pd (toMat n i) : Int) = b.upBox
  upc : ∀ i ∈ L, eligU G n pd i → (coord pd (toMat n i) : Int) ≤ b.upBox ∧ ((coord pd (toMat n i) : Int) = b.upBox → i ∈ b.up)
  low : ∀ i ∈ b.low, i ∈ L ∧ eligL G n pd i ∧ (coord pd (toMat n i) : Int) = b.lowBox
  lowc : ∀ i ∈ L, eligL G n pd i → b.lowBox ≤ (coord pd (toMat n i) : Int) ∧ ((coord pd (toMat n i) : Int) = b.lowBox → i ∈ b.low)
  upa : b.up = [] → b.upBox = -1
  lowa : b.low = [] → b.lowBox = (coord pd n : Int) + 1

theorem upHalf_inv {G n pd L b} (h : BInv G n pd L b) (i : Nat) :
    (∀ j ∈ (upHalf G n pd b i).up, j ∈ L ++ [i] ∧ eligU G n pd j ∧ (coord pd (toMat n j) : Int) = (upHalf G n pd b i).upBox) ∧
      (∀ j ∈ L ++ [i], eligU G n pd j → (coord pd (toMat n j) : Int) ≤ (upHalf G n pd b i).upBox ∧
        ((coord pd (toMat n j) : Int) = (upHalf G n pd b i).upBox → j ∈ (upHalf G n pd b i).up)) ∧
      ((upHalf G n pd b i).up = [] → (upHalf G n pd b i).upBox = -1) := by
  unfold upHalf
  by_cases hc : b.upBox ≤ (coord pd (toMat n i) : Int) ∧ (!G.trimP (nextGlobal n (fwd pd) i).1 (fwd pd)) = true
  · have hel : eligU G n pd i := by simpa [eligU] using hc.2
    rw [if_pos hc]
    by_cases hl : b.upBox < (coord pd (toMat n i) : Int)
    · rw [if_pos hl]
      refine ⟨?_, ?_, by simp⟩
      · intro j hj; simp at hj; subst hj; exact ⟨by simp, hel, rfl⟩
      · intro j hj he
        simp only
        rcases List.mem_append.1 hj with hj | hj
        · have := (h.upc j hj he).1
          exact ⟨by omega, fun e => by omega⟩
        · simp at hj; subst hj; exact ⟨le_refl _, fun _ => by simp⟩
    · rw [if_neg hl]
      refine ⟨?_, ?_, by simp⟩
      · intro j hj
        rcases List.mem_cons.1 hj with rfl | hj
        · exact ⟨by simp, hel, by simp only; omega⟩
        · obtain ⟨a, b, c⟩ := h.up j hj
          exact ⟨by simp [a], b, c⟩
      · intro j hj he
        rcases List.mem_append.1 hj with hj | hj
        · obtain ⟨a, b⟩ := h.upc j hj he
          exact ⟨a, fun e => List.mem_cons_of_mem _ (b e)⟩
        · simp at hj; subst hj
          exact ⟨by simp only; omega, fun _ => by simp⟩
  · rw [if_neg hc]
    refine ⟨?_, ?_, h.upa⟩
    · intro j hj
      obtain ⟨a, b, c⟩ := h.up j hj
      exact ⟨by simp [a], b, c⟩
    · intro j hj he
      rcases List.mem_append.1 hj with hj | hj
      · exact h.upc j hj he
      · simp at hj; subst hj
        have : ¬ b.upBox ≤ (coord pd (toMat n j) : Int) := fun hh => hc ⟨hh, by
          unfold eligU at he; simp [he]⟩
        exact ⟨by omega, fun e => by omega⟩

theorem lowHalf_inv {G n pd L b} (i : Nat)
    (low : ∀ i ∈ b.low, i ∈ L ∧ eligL G n pd i ∧ (coord pd (toMat n i) : Int) = b.lowBox)
    (lowc : ∀ i ∈ L, eligL G n pd i → b.lowBox ≤ (coord pd (toMat n i) : Int) ∧ ((coord pd (toMat n i) : Int) = b.lowBox → i ∈ b.low))
    (lowa : b.low = [] → b.lowBox = (coord pd n : Int) + 1) :
    (∀ j ∈ (lowHalf G n pd b i).low, j ∈ L ++ [i] ∧ eligL G n pd j ∧ (coord pd (toMat n j) : Int) = (lowHalf G n pd b i).lowBox) ∧
      (∀ j ∈ L ++ [i], eligL G n pd j → (lowHalf G n pd b i).lowBox ≤ (coord pd (toMat n j) : Int) ∧
        ((coord pd (toMat n j) : Int) = (lowHalf G n pd b i).lowBox → j ∈ (lowHalf G n pd b i).low)) ∧
      ((lowHalf G n pd b i).low = [] → (lowHalf G n pd b i).lowBox = (coord pd n : Int) + 1) := by
  unfold lowHalf
  by_cases hc : (coord pd (toMat n i) : Int) ≤ b.lowBox ∧ (!G.trimP (nextGlobal n (bwd pd) i).1 (bwd pd)) = true
  · have hel : eligL G n pd i := by simpa [eligL] using hc.2
    rw [if_pos hc]
    by_cases hl : (coord pd (toMat n i) : Int) < b.lowBox
    · rw [if_pos hl]
      refine ⟨?_, ?_, by simp⟩
      · intro j hj; simp at hj; subst hj; exact ⟨by simp, hel, rfl⟩
      · intro j hj he
        simp only
        rcases List.mem_append.1 hj with hj | hj
        · have := (lowc j hj he).1
          exact ⟨by omega, fun e => by omega⟩
        · simp at hj; subst hj; exact ⟨le_refl _, fun _ => by simp⟩
    · rw [if_neg hl]
      refine ⟨?_, ?_, by simp⟩
      · intro j hj
        rcases List.mem_cons.1 hj with rfl | hj
        · exact ⟨by simp, hel, by simp only; omega⟩
        · obtain ⟨a, b, c⟩ := low j hj
          exact ⟨by simp [a], b, c⟩
      · intro j hj he
        rcases List.mem_append.1 hj with hj | hj
        · obtain ⟨a, b⟩ := lowc j hj he
          exact ⟨a, fun e => List.mem_cons_of_mem _ (b e)⟩
        · simp at hj; subst hj
          exact ⟨by simp only; omega, fun _ => by simp⟩
  · rw [if_neg hc]
    refine ⟨?_, ?_, lowa⟩
    · intro j hj
      obtain ⟨a, b, c⟩ := low j hj
      exact ⟨by simp [a], b, c⟩
    · intro j hj he
      rcases List.mem_append.1 hj with hj | hj
      · exact lowc j hj he
      · simp at hj; subst hj
        have : ¬ (coord pd (toMat n j) : Int) ≤ b.lowBox := fun hh => hc ⟨hh, by
          unfold eligL at he; simp [he]⟩
        exact ⟨by omega, fun e => by omega⟩

theorem bndStep_inv {G n pd L b} (h : BInv G n pd L b) (i : Nat) : BInv G n pd (L ++ [i]) (bndStep G n pd b i) := by
  rw [bndStep_eq]
  obtain ⟨u1, u2, u3⟩ := upHalf_inv h i
  obtain ⟨e1, e2⟩ := lowHalf_up G n pd (upHalf G n pd b i) i
  obtain ⟨f1, f2⟩ := upHalf_low G n pd b i
  obtain ⟨l1, l2, l3⟩ := lowHalf_inv (G := G) (n := n) (pd := pd) (L := L) (b := upHalf G n pd b i) i
    (by rw [f1, f2]; exact h.low) (by rw [f1, f2]; exact h.lowc) (by rw [f1, f2]; exact h.lowa)
  refine ⟨?_, ?_, l1, l2, ?_, l3⟩
  · rw [e1, e2]; exact u1
  · rw [e1, e2]; exact u2
  · rw [e1, e2]; exact u3

theorem bnd_inv (G : Geo) (n : V3 Nat) (pd : Nat) (g : Group) : BInv G n pd g.cells (bnd G n pd g) := by
  have key : ∀ (L L0 : List Nat) b, BInv G n pd L0 b → BInv G n pd (L0 ++ L) (L.foldl (bndStep G n pd) b) := by
    intro L
    induction L with
    | nil => intro L0 b h; simpa using h
    | cons i L ih =>
      intro L0 b h
      have := ih (L0 ++ [i]) _ (bndStep_inv h i)
      simpa using this
  have := key g.cells [] (Bnd.init n pd) ⟨by simp [Bnd.init], by simp, by simp [Bnd.init], by simp, by simp [Bnd.init], by simp [Bnd.init]⟩
  simpa [bnd] using this

/-! ## The neighbour test between two groups -/

/-- There is a face between an upper boundary cell of `a` and a lower boundary cell of `b`. -/
def Link (G : Geo) (n : V3 Nat) (pd : Nat) (a b : Group) : Prop :=
  ∃ i ∈ (bnd G n pd a).up, ∃ j ∈ (bnd G n pd b).low, Neighbour (fwd pd) (toMat n i) (toMat n j)

theorem touches_iff {n : V3 Nat} (hn : InGrid n ⟨0, 0, 0⟩) (d : Dir) (other : List Nat)
    (ho : ∀ j ∈ other, j < numElements n) (L : List Nat) (hL : ∀ i ∈ L, i < numElements n)
    (hsame : ∀ i ∈ L, ∀ i' ∈ L, (nextGlobal n d i).2 = .middle → (nextGlobal n d i').2 = .middle) :
    touches n d other L = true ↔ ∃ i ∈ L, ∃ j ∈ other, Neighbour d (toMat n i) (toMat n j) := by
  induction L with
  | nil => simp [touches]
  | cons i L ih =>
    have ih' := ih (fun k hk => hL k (List.mem_cons_of_mem _ hk))
      (fun a ha b hb => hsame a (List.mem_cons_of_mem _ ha) b (List.mem_cons_of_mem _ hb))
    rw [touches]
    by_cases hm : (nextGlobal n d i).2 = .middle
    · rw [if_neg (by simpa using hm)]
      have hnb := global_next_inv hn (hL i (by simp)) hm
      by_cases ho' : (nextGlobal n d i).1 ∈ other
      · rw [if_pos ho']
        simp only [true_iff]
        exact ⟨i, by simp, _, ho', hnb.2⟩
      · rw [if_neg ho', ih']
        constructor
        · rintro ⟨k, hk, j, hj, h⟩
          exact ⟨k, List.mem_cons_of_mem _ hk, j, hj, h⟩
        · rintro ⟨k, hk, j, hj, h⟩
          rcases List.mem_cons.1 hk with rfl | hk
          · exfalso
            apply ho'
            rw [global_next hn (hL _ (by simp)) (ho j hj) h]
            exact hj
          · exact ⟨k, hk, j, hj, h⟩
    · rw [if_pos hm]
      simp only [Bool.false_eq_true, false_iff]
      rintro ⟨k, hk, j, hj, h⟩
      have e := global_next hn (hL k hk) (ho j hj) h
      exact hm (hsame k hk i (by simp) (by rw [e]))

theorem relG_iff {G : Geo} {n : V3 Nat} (hn : InGrid n ⟨0, 0, 0⟩) {pd : Nat} (hpd : PD pd) {a b : Group}
    (ha : ∀ i ∈ a.cells, i < numElements n) (hb : ∀ i ∈ b.cells, i < numElements n) :
    relG G n pd a b ↔ ((a.part : Int) - (b.part : Int)).natAbs ≤ 1 ∧ (Link G n pd a b ∨ Link G n pd b a) := by
  have Ia := bnd_inv G n pd a
  have Ib := bnd_inv G n pd b
  unfold relG areNeighbours
  rw [Bool.or_eq_true]
  rw [touches_iff hn (fwd pd) _ (fun j hj => hb j (Ib.low j hj).1) _ (fun i hi => ha i (Ia.up i hi).1)
    (by
      intro i hi i' hi' h
      rw [fwd_mid hn hpd (ha i (Ia.up i hi).1)] at h
      rw [fwd_mid hn hpd (ha i' (Ia.up i' hi').1)]
      have e1 := (Ia.up i hi).2.2
      have e2 := (Ia.up i' hi').2.2
      omega)]
  rw [touches_iff hn (bwd pd) _ (fun j hj => hb j (Ib.up j hj).1) _ (fun i hi => ha i (Ia.low i hi).1)
    (by
      intro i hi i' hi' h
      rw [bwd_mid hn hpd (ha i (Ia.low i hi).1)] at h
      rw [bwd_mid hn hpd (ha i' (Ia.low i' hi').1)]
      have e1 := (Ia.low i hi).2.2
      have e2 := (Ia.low i' hi').2.2
      omega)]
  unfold Link
  constructor
  · rintro ⟨h1, h2 | ⟨i, hi, j, hj, h⟩⟩
    · exact ⟨h1, Or.inl h2⟩
    · exact ⟨h1, Or.inr ⟨j, hj, i, hi, by have := neighbour_reverse h; rwa [reverse_bwd hpd] at this⟩⟩
  · rintro ⟨h1, h2 | ⟨i, hi, j, hj, h⟩⟩
    · exact ⟨h1, Or.inl h2⟩
    · exact ⟨h1, Or.inr ⟨j, hj, i, hi, by have := neighbour_reverse h; rwa [reverse_fwd hpd] at this⟩⟩

theorem relG_symm {G : Geo} {n : V3 Nat} (hn : InGrid n ⟨0, 0, 0⟩) {pd : Nat} (hpd : PD pd) {a b : Group}
    (ha : ∀ i ∈ a.cells, i < numElements n) (hb : ∀ i ∈ b.cells, i < numElements n)
    (h : relG G n pd a b) : relG G n pd b a := by
  rw [relG_iff hn hpd ha hb] at h
  rw [relG_iff hn hpd hb ha]
  exact ⟨by omega, h.2.symm⟩

/-! ## Open faces between untrimmed cells -/

/-- Cells `i`, `j` are face neighbours, both untrimmed, and the geometry reports no boundary between them, seen from
either side. -/
def OpenFace (G : Geo) (n : V3 Nat) (i j : Nat) : Prop :=
  i < numElements n ∧ j < numElements n ∧ G.trim i = false ∧ G.trim j = false ∧
    ∃ d, Neighbour d (toMat n i) (toMat n j) ∧ G.trimP j d = false ∧ G.trimP i (reverse d) = false

theorem reverse_reverse (d : Dir) : reverse (reverse d) = d := by cases d <;> rfl

theorem OpenFace.symm {G n i j} (h : OpenFace G n i j) : OpenFace G n j i := by
  obtain ⟨h1, h2, h3, h4, d, h5, h6, h7⟩ := h
  exact ⟨h2, h1, h4, h3, reverse d, neighbour_reverse h5, h7, by rwa [reverse_reverse]⟩

theorem link_open {G : Geo} {n : V3 Nat} (hn : InGrid n ⟨0, 0, 0⟩) {pd : Nat} (hpd : PD pd) {a b : Group}
    (ha : ∀ i ∈ a.cells, i < numElements n ∧ G.trim i = false) (hb : ∀ i ∈ b.cells, i < numElements n ∧ G.trim i = false)
    (h : Link G n pd a b) : ∃ i ∈ a.cells, ∃ j ∈ b.cells, OpenFace G n i j := by
  obtain ⟨i, hi, j, hj, hnb⟩ := h
  obtain ⟨i1, i2, _⟩ := (bnd_inv G n pd a).up i hi
  obtain ⟨j1, j2, _⟩ := (bnd_inv G n pd b).low j hj
  refine ⟨i, i1, j, j1, (ha i i1).1, (hb j j1).1, (ha i i1).2, (hb j j1).2, fwd pd, hnb, ?_, ?_⟩
  · have := i2
    unfold eligU at this
    rwa [global_next hn (ha i i1).1 (hb j j1).1 hnb] at this
  · have := j2
    unfold eligL at this
    rw [reverse_fwd hpd]
    have h' := neighbour_reverse hnb
    rw [reverse_fwd hpd] at h'
    rwa [global_next hn (hb j j1).1 (ha i i1).1 h'] at this

theorem slab_second {n : V3 Nat} {T k : Nat} (hk : k < slabs n T) (hn : InGrid n ⟨0, 0, 0⟩) {v w : V3 Nat}
    (hv : InPart (slab n (partitionDir n) (partitionSize (coord (partitionDir n) n) T) k) v)
    (hw : ¬ InPart (slab n (partitionDir n) (partitionSize (coord (partitionDir n) n) T) k) w) (hg : InGrid n w)
    (hc : coord (partitionDir n) w = coord (partitionDir n) v + 1) :
    (∀ u, InPart (slab n (partitionDir n) (partitionSize (coord (partitionDir n) n) T) k) u →
      coord (partitionDir n) u ≤ coord (partitionDir n) v) ∧
    coord (partitionDir n) w / partitionSize (coord (partitionDir n) n) T = k + 1 ∧
    (∀ u, InGrid n u → coord (partitionDir n) u / partitionSize (coord (partitionDir n) n) T = k + 1 →
      coord (partitionDir n) w ≤ coord (partitionDir n) u) := by
  have hs := size_pos (coord (partitionDir n) n) T
  rw [inPart_slab k hk v hn] at hv
  rw [inPart_slab k hk w hn] at hw
  have hw' : ¬ coord (partitionDir n) w / partitionSize (coord (partitionDir n) n) T = k := fun h => hw ⟨hg, h⟩
  obtain ⟨_, hv2⟩ := hv
  rw [hc] at hw' ⊢
  have hmul : partitionSize (coord (partitionDir n) n) T * (k + 1) = partitionSize (coord (partitionDir n) n) T * k + partitionSize (coord (partitionDir n) n) T := by ring
  have hmul2 : partitionSize (coord (partitionDir n) n) T * (k + 1 + 1) = partitionSize (coord (partitionDir n) n) T * (k + 1) + partitionSize (coord (partitionDir n) n) T := by ring
  have hdiv : ∀ a q : Nat, a / partitionSize (coord (partitionDir n) n) T = q ↔
      partitionSize (coord (partitionDir n) n) T * q ≤ a ∧ a < partitionSize (coord (partitionDir n) n) T * (q + 1) := by
    intro a q
    rw [Nat.div_eq_iff hs, Nat.mul_comm q _, Nat.mul_add]
    omega
  rw [hdiv] at hv2 hw' ⊢
  refine ⟨?_, ?_, ?_⟩
  · intro u hu
    rw [inPart_slab k hk u hn, hdiv] at hu
    omega
  · omega
  · intro u _ hu
    rw [hdiv] at hu
    omega

theorem mem_up {G : Geo} {n : V3 Nat} {pd : Nat} {g : Group} {i : Nat} (hi : i ∈ g.cells) (he : eligU G n pd i)
    (hmax : ∀ c ∈ g.cells, coord pd (toMat n c) ≤ coord pd (toMat n i)) : i ∈ (bnd G n pd g).up := by
  have I := bnd_inv G n pd g
  obtain ⟨h1, h2⟩ := I.upc i hi he
  refine h2 (le_antisymm h1 ?_)
  by_cases hne : (bnd G n pd g).up = []
  · have := I.upa hne
    omega
  · obtain ⟨c, hc⟩ := List.exists_mem_of_ne_nil _ hne
    rw [← (I.up c hc).2.2]
    exact_mod_cast hmax c (I.up c hc).1

theorem mem_low {G : Geo} {n : V3 Nat} {pd : Nat} {g : Group} {i : Nat} (hi : i ∈ g.cells) (he : eligL G n pd i)
    (hlt : coord pd (toMat n i) < coord pd n)
    (hmin : ∀ c ∈ g.cells, coord pd (toMat n i) ≤ coord pd (toMat n c)) : i ∈ (bnd G n pd g).low := by
  have I := bnd_inv G n pd g
  obtain ⟨h1, h2⟩ := I.lowc i hi he
  refine h2 (le_antisymm ?_ h1)
  by_cases hne : (bnd G n pd g).low = []
  · have := I.lowa hne
    omega
  · obtain ⟨c, hc⟩ := List.exists_mem_of_ne_nil _ hne
    rw [← (I.low c hc).2.2]
    exact_mod_cast hmin c (I.low c hc).1

theorem coord_lt {n v : V3 Nat} {pd : Nat} (h : PD pd) (hg : InGrid n v) : coord pd v < coord pd n := by
  obtain ⟨h1, h2, h3⟩ := hg
  rcases h with rfl | rfl | rfl <;> simp only [coord, V3.get] <;> assumption

/-- Across the face between two slabs. -/
theorem link_of_face {G : Geo} {n : V3 Nat} (hn : InGrid n ⟨0, 0, 0⟩) {T : Nat} (hT : 0 < T) {gs : List Group}
    (hG : GSpec G n (partitions n T) gs) {a b : Group} (ha : a ∈ gs) (hb : b ∈ gs) {i j : Nat} (hi : i ∈ a.cells)
    (hj : j ∈ b.cells) (hnb : Neighbour (fwd (partitionDir n)) (toMat n i) (toMat n j))
    (hP : G.trimP j (fwd (partitionDir n)) = false) (hP' : G.trimP i (bwd (partitionDir n)) = false)
    (hne : a.part ≠ b.part) :
    ((a.part : Int) - (b.part : Int)).natAbs ≤ 1 ∧ Link G n (partitionDir n) a b := by
  obtain ⟨p, hp, hpin, hok⟩ := hG.ok a ha
  obtain ⟨q, hq, hqin, _⟩ := hG.ok b hb
  obtain ⟨hka, rfl⟩ := (partitions_get n hT _ _).1 hp
  obtain ⟨hkb, rfl⟩ := (partitions_get n hT _ _).1 hq
  have hpd : PD (partitionDir n) := partitionDir_cases n
  have hlt : ∀ g ∈ gs, ∀ c ∈ g.cells, c < numElements n := fun g hg c hc =>
    ((hG.ce c).1 (List.mem_flatMap.2 ⟨g, hg, hc⟩)).1
  have i1 := hlt a ha i hi
  have j1 := hlt b hb j hj
  have gj := toMat_inGrid n j j1
  have hpj := (inPart_slab _ hkb _ hn).1 (hqin j hj)
  have hsame : ¬ inP n (slab n (partitionDir n) (partitionSize (coord (partitionDir n) n) T) a.part) j := by
    intro h
    exact hne (((inPart_slab _ hka _ hn).1 h).2.symm.trans hpj.2)
  have hc := fwd_coord hpd hnb
  obtain ⟨m1, m2, m3⟩ := slab_second hka hn (hpin i hi) hsame gj hc
  have hkk : b.part = a.part + 1 := hpj.2.symm.trans m2
  have hnb' := neighbour_reverse hnb
  rw [reverse_fwd hpd] at hnb'
  refine ⟨by omega, i, mem_up hi ?_ (fun c hc => m1 _ (hpin c hc)), j, mem_low hj ?_ (coord_lt hpd gj) ?_, hnb⟩
  · unfold eligU
    rw [global_next hn i1 j1 hnb]; exact hP
  · unfold eligL
    rw [global_next hn j1 i1 hnb']; exact hP'
  · intro c hc
    have := (inPart_slab _ hkb _ hn).1 (hqin c hc)
    exact m3 _ this.1 (this.2.trans hkk)

/-- Two untrimmed cells with an open face are in the same group or in neighbouring groups. -/
theorem open_related {G : Geo} {n : V3 Nat} (hn : InGrid n ⟨0, 0, 0⟩) {T : Nat} (hT : 0 < T) {gs : List Group}
    (hG : GSpec G n (partitions n T) gs) {a b : Group} (ha : a ∈ gs) (hb : b ∈ gs) {i j : Nat} (hi : i ∈ a.cells)
    (hj : j ∈ b.cells) (h : OpenFace G n i j) : j ∈ a.cells ∨ relG G n (partitionDir n) a b := by
  obtain ⟨p, hp, hpin, hok⟩ := hG.ok a ha
  obtain ⟨q, hq, hqin, _⟩ := hG.ok b hb
  obtain ⟨hka, rfl⟩ := (partitions_get n hT _ _).1 hp
  obtain ⟨hkb, rfl⟩ := (partitions_get n hT _ _).1 hq
  have hpd : PD (partitionDir n) := partitionDir_cases n
  obtain ⟨i1, j1, i2, j2, d, hnb, hP, hP'⟩ := h
  have hlt : ∀ g ∈ gs, ∀ c ∈ g.cells, c < numElements n := fun g hg c hc =>
    ((hG.ce c).1 (List.mem_flatMap.2 ⟨g, hg, hc⟩)).1
  by_cases hsame : a.part = b.part
  · left
    have hjp : inP n (slab n (partitionDir n) (partitionSize (coord (partitionDir n) n) T) a.part) j := by
      rw [hsame]; exact hqin j hj
    exact hG.both a ha _ hp i hi d j (next_of_neighbour (hpin i hi) hjp hnb) j2 hP hP'
  · right
    have gi := toMat_inGrid n i i1
    have gj := toMat_inGrid n j j1
    have hpi := (inPart_slab _ hka _ hn).1 (hpin i hi)
    have hpj := (inPart_slab _ hkb _ hn).1 (hqin j hj)
    have hdf : d = fwd (partitionDir n) ∨ d = bwd (partitionDir n) := by
      by_contra hc
      push Not at hc
      have := other_coord hpd hc.1 hc.2 hnb
      rw [this] at hpj
      exact hsame (hpi.2.symm.trans hpj.2)
    rw [relG_iff hn hpd (hlt a ha) (hlt b hb)]
    rcases hdf with rfl | rfl
    · rw [reverse_fwd hpd] at hP'
      obtain ⟨c, l⟩ := link_of_face hn hT hG ha hb hi hj hnb hP hP' hsame
      exact ⟨c, Or.inl l⟩
    · rw [reverse_bwd hpd] at hP'
      have hnb' := neighbour_reverse hnb
      rw [reverse_bwd hpd] at hnb'
      obtain ⟨c, l⟩ := link_of_face hn hT hG hb ha hj hi hnb' hP' hP (Ne.symm hsame)
      exact ⟨by omega, Or.inr l⟩

/-! ## Votes -/

/-- The vote of a cell in a direction, where the step wraps at the end of the grid. -/
def wrapVote (G : Geo) (n : V3 Nat) (i : Nat) (d : Dir) : Int :=
  if G.trimP (nextGlobal n d i).1 d = true then G.side i (nextGlobal n d i).1 d else 0

/-- All votes of a cell: wrapping steps along the partition direction, proper neighbours otherwise. -/
def cellVotes (G : Geo) (n : V3 Nat) (i : Nat) : Int :=
  (directions.map (fun d => if d = fwd (partitionDir n) ∨ d = bwd (partitionDir n) then wrapVote G n i d
    else dirVote G n (globalPartition n) i d)).sum

theorem next_sub {n : V3 Nat} (hn : InGrid n ⟨0, 0, 0⟩) {p : Partition} (hp : ValidPart n p) {d i} (hi : inP n p i)
    (h : (next n p d i).2 = .middle) : nextGlobal n d i = ((next n p d i).1, .middle) := by
  obtain ⟨h1, h2⟩ := next_mid hp hi h
  exact global_next hn (inP_lt hp hi) (inP_lt hp h1) h2

theorem vote_other {G : Geo} {n : V3 Nat} (hn : InGrid n ⟨0, 0, 0⟩) {T k : Nat} (hk : k < slabs n T) {i : Nat}
    (hi : inP n (slab n (partitionDir n) (partitionSize (coord (partitionDir n) n) T) k) i) {d : Dir}
    (h1 : d ≠ fwd (partitionDir n)) (h2 : d ≠ bwd (partitionDir n)) :
    dirVote G n (slab n (partitionDir n) (partitionSize (coord (partitionDir n) n) T) k) i d =
      dirVote G n (globalPartition n) i d := by
  have hv := slab_valid (T := T) k hk hn
  have hpd : PD (partitionDir n) := partitionDir_cases n
  by_cases hm : (next n (slab n (partitionDir n) (partitionSize (coord (partitionDir n) n) T) k) d i).2 = .middle
  · have := next_sub hn hv hi hm
    unfold nextGlobal at this
    simp only [dirVote, hm, this]
  · have : ¬ (next n (globalPartition n) d i).2 = .middle := by
      intro hg
      obtain ⟨g1, g2⟩ := global_next_inv hn (inP_lt hv hi) hg
      apply hm
      have hc := other_coord hpd h1 h2 g2
      have hj : inP n (slab n (partitionDir n) (partitionSize (coord (partitionDir n) n) T) k) (nextGlobal n d i).1 := by
        rw [inP, inPart_slab _ hk _ hn]
        exact ⟨toMat_inGrid n _ g1, by rw [hc]; exact ((inPart_slab _ hk _ hn).1 hi).2⟩
      rw [next_of_neighbour hi hj g2]
    simp [dirVote, hm, this]

theorem vote_fwd {G : Geo} {n : V3 Nat} (hn : InGrid n ⟨0, 0, 0⟩) {p : Partition} (hv : ValidPart n p) {pd : Nat}
    (hpd : PD pd) {i : Nat} (hi : inP n p i) :
    dirVote G n p i (fwd pd) + (if coord pd (toMat n i) = coord pd p.second ∧ G.trimP (nextGlobal n (fwd pd) i).1 (fwd pd) then
      G.side i (nextGlobal n (fwd pd) i).1 (fwd pd) else 0) = wrapVote G n i (fwd pd) := by
  have hiff := next_fwd_mid hpd hi
  by_cases hm : (next n p (fwd pd) i).2 = .middle
  · have e := next_sub hn hv hi hm
    simp only [dirVote, wrapVote, hm, e, hiff.1 hm]
    simp
  · have : coord pd (toMat n i) = coord pd p.second := by
      by_contra hc
      exact hm (hiff.2 hc)
    simp [dirVote, wrapVote, hm, this]

theorem vote_bwd {G : Geo} {n : V3 Nat} (hn : InGrid n ⟨0, 0, 0⟩) {p : Partition} (hv : ValidPart n p) {pd : Nat}
    (hpd : PD pd) {i : Nat} (hi : inP n p i) :
    dirVote G n p i (bwd pd) + (if coord pd (toMat n i) = coord pd p.first ∧ G.trimP (nextGlobal n (bwd pd) i).1 (bwd pd) then
      G.side i (nextGlobal n (bwd pd) i).1 (bwd pd) else 0) = wrapVote G n i (bwd pd) := by
  have hiff := next_bwd_mid hpd hi
  by_cases hm : (next n p (bwd pd) i).2 = .middle
  · have e := next_sub hn hv hi hm
    simp only [dirVote, wrapVote, hm, e, hiff.1 hm]
    simp
  · have : coord pd (toMat n i) = coord pd p.first := by
      by_contra hc
      exact hm (hiff.2 hc)
    simp [dirVote, wrapVote, hm, this]

theorem votes_cell {G : Geo} {n : V3 Nat} (hn : InGrid n ⟨0, 0, 0⟩) {T k : Nat} (hk : k < slabs n T) {i : Nat}
    (hi : inP n (slab n (partitionDir n) (partitionSize (coord (partitionDir n) n) T) k) i) :
    voteIn G n (slab n (partitionDir n) (partitionSize (coord (partitionDir n) n) T) k) i +
      extraVotes G n (partitionDir n) (slab n (partitionDir n) (partitionSize (coord (partitionDir n) n) T) k) i =
    cellVotes G n i := by
  have hv := slab_valid (T := T) k hk hn
  have hpd : PD (partitionDir n) := partitionDir_cases n
  have hF := vote_fwd (G := G) hn hv hpd hi
  have hB := vote_bwd (G := G) hn hv hpd hi
  have hO := fun d h1 h2 => vote_other (G := G) hn hk hi (d := d) h1 h2
  unfold cellVotes voteIn extraVotes
  simp only [directions, List.map_cons, List.map_nil, List.sum_cons, List.sum_nil]
  generalize slab n (partitionDir n) (partitionSize (coord (partitionDir n) n) T) k = p at hF hB hO ⊢
  have f0 : fwd 0 = .xf := rfl
  have f1 : fwd 1 = .yf := rfl
  have f2 : fwd 2 = .zf := rfl
  have b0 : bwd 0 = .xb := rfl
  have b1 : bwd 1 = .yb := rfl
  have b2 : bwd 2 = .zb := rfl
  rcases hpd with h | h | h <;> rw [h] at hF hB hO ⊢ <;> simp only [f0, f1, f2, b0, b1, b2] at hF hB hO ⊢ <;>
    simp only [reduceCtorEq, or_false, or_true, true_or, if_true, if_false, false_or]
  · rw [hO .yf (by decide) (by decide), hO .yb (by decide) (by decide), hO .zf (by decide) (by decide), hO .zb (by decide) (by decide),
      ← hF, ← hB]
    ring
  · rw [hO .xf (by decide) (by decide), hO .xb (by decide) (by decide), hO .zf (by decide) (by decide), hO .zb (by decide) (by decide),
      ← hF, ← hB]
    ring
  · rw [hO .xf (by decide) (by decide), hO .xb (by decide) (by decide), hO .yf (by decide) (by decide), hO .yb (by decide) (by decide),
      ← hF, ← hB]
    ring

end QuESo.Flood
