import Verif.Proofs.FloodFill

/-! # The votes of the model are the votes over faces -/
namespace QuESo.Flood
open QuESo.Grid QuESo.Spec

theorem toMat_posOf (n : V3 Nat) (i : Nat) : toMat n i = posOf n i := by
  unfold toMat posOf
  have h1 : i % (n.x * n.y) % n.x = i % n.x := Nat.mod_mul_right_mod _ _ _
  have h2 : i % (n.x * n.y) / n.x = i / n.x % n.y := Nat.mod_mul_right_div_self _ _ _
  have h3 : i / (n.x * n.y) = i / n.x / n.y := (Nat.div_div_eq_div_mul _ _ _).symm
  simp only [h1, h2, h3]

theorem ite_end {α : Type _} (a b : Prop) [Decidable a] [Decidable b] (x y z : α) :
    (if a then (x, IndexInfo.localEnd) else if b then (y, IndexInfo.localEnd) else (z, IndexInfo.globalEnd)).2 ≠
      IndexInfo.middle := by
  by_cases ha : a
  · simp [ha]
  · by_cases hb : b <;> simp [ha, hb]

theorem dirVote_face (G : Geo) {n : V3 Nat} (hn : InGrid n ⟨0, 0, 0⟩) {i : Nat} (hi : i < numElements n) (d : Dir) :
    dirVote G n (globalPartition n) i d = faceVote G n i d := by
  have hg := toMat_inGrid n i hi
  obtain ⟨g1, g2, g3⟩ := hg
  obtain ⟨n1, n2, n3⟩ := hn
  simp only at n1 n2 n3
  unfold dirVote faceVote
  rw [← toMat_posOf]
  cases d <;> simp only [next, nextX, prevX, nextY, prevY, nextZ, prevZ, stepIn, globalPartition]
  · by_cases h : (toMat n i).x + 1 < n.x
    · have h' : (toMat n i).x < n.x - 1 := by omega
      simp [h, h', cellNo_eq]
    · have h' : ¬ (toMat n i).x < n.x - 1 := by omega
      simp only [h, h', if_false]
      refine if_neg ?_
      exact fun hh => ite_end _ _ _ _ _ hh.1
  · by_cases h : 0 < (toMat n i).x
    · simp [h, cellNo_eq]
    · simp only [h, gt_iff_lt, if_false]
      refine if_neg ?_
      exact fun hh => ite_end _ _ _ _ _ hh.1
  · by_cases h : (toMat n i).y + 1 < n.y
    · have h' : (toMat n i).y < n.y - 1 := by omega
      simp [h, h', cellNo_eq]
    · have h' : ¬ (toMat n i).y < n.y - 1 := by omega
      simp only [h, h', if_false]
      refine if_neg ?_
      exact fun hh => ite_end _ _ _ _ _ hh.1
  · by_cases h : 0 < (toMat n i).y
    · simp [h, cellNo_eq]
    · simp only [h, gt_iff_lt, if_false]
      refine if_neg ?_
      exact fun hh => ite_end _ _ _ _ _ hh.1
  · by_cases h : (toMat n i).z + 1 < n.z
    · have h' : (toMat n i).z < n.z - 1 := by omega
      simp [h, h', cellNo_eq]
    · have h' : ¬ (toMat n i).z < n.z - 1 := by omega
      simp only [h, h', if_false]
      refine if_neg ?_
      exact fun hh => ite_end _ _ _ _ _ hh.1
  · by_cases h : 0 < (toMat n i).z
    · simp [h, cellNo_eq]
    · simp only [h, gt_iff_lt, if_false]
      refine if_neg ?_
      exact fun hh => ite_end _ _ _ _ _ hh.1

theorem partitionDir_max (n : V3 Nat) : partitionDir n < 3 ∧ ∀ b < 3, n.get b ≤ n.get (partitionDir n) := by
  unfold partitionDir
  simp only
  constructor
  · split_ifs <;> omega
  · intro b hb
    have : b = 0 ∨ b = 1 ∨ b = 2 := by omega
    split_ifs with h1 h2 <;> rcases this with rfl | rfl | rfl <;> simp only [V3.get] <;> omega

theorem end_vec {n v : V3 Nat} {a : Nat} (hv : InGrid n v) (ha : a < 3) (hm : ∀ b < 3, n.get b ≤ n.get a)
    (h : v.get a = 0 ∨ v.get a + 1 = n.get a) :
    toVec n v < numElements n ∧ ∃ a < 3, (∀ b < 3, n.get b ≤ n.get a) ∧
      ((posOf n (toVec n v)).get a = 0 ∨ (posOf n (toVec n v)).get a + 1 = n.get a) := by
  refine ⟨toVec_lt n v hv, a, ha, hm, ?_⟩
  rw [← toMat_posOf, toMat_toVec n v hv]
  exact h

theorem ite_cases {α : Type _} {a b c : Prop} [Decidable a] [Decidable b] [Decidable c] {x y z w : α} {P : α → Prop}
    (h : (if a then (x, IndexInfo.middle) else if b then (y, IndexInfo.localEnd) else
      if c then (z, IndexInfo.localEnd) else (w, IndexInfo.globalEnd)).2 ≠ IndexInfo.middle)
    (hy : ¬ a → b → P y) (hz : ¬ a → ¬ b → c → P z) (hw : ¬ a → ¬ b → ¬ c → P w) :
    P (if a then (x, IndexInfo.middle) else if b then (y, IndexInfo.localEnd) else
      if c then (z, IndexInfo.localEnd) else (w, IndexInfo.globalEnd)).1 := by
  by_cases ha : a
  · simp [ha] at h
  · by_cases hb : b
    · simpa [ha, hb] using hy ha hb
    · by_cases hc : c
      · simpa [ha, hb, hc] using hz ha hb hc
      · simpa [ha, hb, hc] using hw ha hb hc

/-- A wrapped step lands in an end layer. -/
theorem wrap_end {n : V3 Nat} (hn : InGrid n ⟨0, 0, 0⟩) {i : Nat} (hi : i < numElements n) {d : Dir}
    (hd : d = fwd (partitionDir n) ∨ d = bwd (partitionDir n)) (h : (nextGlobal n d i).2 ≠ .middle) :
    (nextGlobal n d i).1 < numElements n ∧ EndLayer n (nextGlobal n d i).1 := by
  have hg := toMat_inGrid n i hi
  obtain ⟨g1, g2, g3⟩ := hg
  obtain ⟨n1, n2, n3⟩ := hn
  simp only at n1 n2 n3
  obtain ⟨m1, m2⟩ := partitionDir_max n
  unfold EndLayer
  rcases (partitionDir_cases n) with h0 | h0 | h0 <;> rw [h0] at hd m2 <;>
    simp only [fwd, bwd, if_true, if_false, one_ne_zero, OfNat.ofNat_ne_zero, OfNat.ofNat_ne_one] at hd <;>
    rcases hd with rfl | rfl <;>
    simp only [nextGlobal, next, nextX, prevX, nextY, prevY, nextZ, prevZ, globalPartition, gt_iff_lt] at h ⊢
  all_goals
    refine ite_cases (P := fun j => j < numElements n ∧ ∃ a < 3, (∀ b < 3, n.get b ≤ n.get a) ∧
      ((posOf n j).get a = 0 ∨ (posOf n j).get a + 1 = n.get a)) h ?_ ?_ ?_ <;> intro c1 c2
    · refine end_vec ⟨?_, ?_, ?_⟩ (by omega) m2 ?_ <;> simp only [V3.get] <;> first | omega | exact Or.inl trivial
    · intro c3
      refine end_vec ⟨?_, ?_, ?_⟩ (by omega) m2 ?_ <;> simp only [V3.get] <;> first | omega | exact Or.inl trivial
    · intro c3
      refine ⟨hi, _, by omega, m2, ?_⟩
      rw [← toMat_posOf]
      simp only [V3.get]
      omega

theorem cellVotes_face {G : Geo} {n : V3 Nat} (hn : InGrid n ⟨0, 0, 0⟩)
    (hG : ∀ w d, IsCell n w → EndLayer n w → G.trimP w d = false) {i : Nat} (hi : i < numElements n) :
    cellVotes G n i = ([Dir.xf, .xb, .yf, .yb, .zf, .zb].map (faceVote G n i)).sum := by
  unfold cellVotes
  congr 1
  refine List.map_congr_left fun d _ => ?_
  split_ifs with hd
  · rw [← dirVote_face G hn hi]
    unfold wrapVote dirVote
    by_cases hm : (nextGlobal n d i).2 = .middle
    · have hm' : (next n (globalPartition n) d i).2 = .middle := hm
      simp only [hm', true_and]
      rfl
    · obtain ⟨e1, e2⟩ := wrap_end hn hi hd hm
      have hm' : ¬ (next n (globalPartition n) d i).2 = .middle := hm
      rw [hG _ d e1 e2]
      simp [hm']
  · exact dirVote_face G hn hi d

theorem votes_face {G : Geo} {n : V3 Nat} (hn : InGrid n ⟨0, 0, 0⟩)
    (hG : ∀ w d, IsCell n w → EndLayer n w → G.trimP w d = false) {gs ms st} (h : COut G n gs ms st) {m : Group}
    (hm : m ∈ ms) : m.count = faceVotes G n m.cells := by
  rw [h.count m hm]
  unfold faceVotes
  congr 1
  refine List.map_congr_left fun i hi => cellVotes_face hn hG ?_
  exact ((h.ce i).1 (List.mem_flatMap.2 ⟨m, hm, hi⟩)).1

end QuESo.Flood
