import Verif.Proofs.NNLS

/-!
# Proofs about the solver of non-negative least-squares problems: the loops
-/
namespace QuESo.NNLS
open Finset
variable {K : Type*} [Field K] [LinearOrder K] [IsStrictOrderedRing K]

/-- What always holds between the steps of the program. -/
structure Core (m n : Nat) (A : Nat → Nat → K) (b : Nat → K) (s : St K) : Prop where
  range : ∀ p, 1 ≤ p → p ≤ n → 1 ≤ s.index p ∧ s.index p ≤ n
  inj : ∀ p q, 1 ≤ p → p ≤ n → 1 ≤ q → q ≤ n → s.index p = s.index q → p = q
  iz1 : s.iz1 = s.nsetp + 1
  npp1 : s.npp1 = s.nsetp + 1
  rows : s.nsetp ≤ m
  cols : s.nsetp ≤ n
  same : Same m n A b s.a s.b
  low : ∀ p, 1 ≤ p → p ≤ s.nsetp → ∀ l, p < l → l ≤ m → s.a (s.index p) l = 0
  diag : ∀ p, 1 ≤ p → p ≤ s.nsetp → s.a (s.index p) p ≠ 0
  zero : ∀ p, s.nsetp < p → p ≤ n → s.x (s.index p) = 0

/-- `y` solves the least-squares problem for the columns in the set P. -/
def Solves (s : St K) (y : Nat → K) : Prop :=
  ∀ l, 1 ≤ l → l ≤ s.nsetp → ∑ p ∈ Icc 1 s.nsetp, s.a (s.index p) l * y p = s.b l

/-- What holds at the beginning of the main loop. -/
structure MainInv (m n : Nat) (A : Nat → Nat → K) (b : Nat → K) (s : St K) : Prop where
  core : Core m n A b s
  pos : ∀ p, 1 ≤ p → p ≤ s.nsetp → 0 < s.x (s.index p)
  sol : Solves s fun p => s.x (s.index p)

/-- What holds at the beginning of the secondary loop. -/
structure SecondInv (m n : Nat) (A : Nat → Nat → K) (b : Nat → K) (s : St K) : Prop where
  core : Core m n A b s
  pos : ∀ p, 1 ≤ p → p ≤ s.nsetp → 0 < s.x (s.index p) ∨ s.x (s.index p) = 0 ∧ 0 < s.zz p
  sol : Solves s s.zz

/-- The permutation is onto. -/
theorem Core.onto {m n : Nat} {A : Nat → Nat → K} {b : Nat → K} {s : St K} (h : Core m n A b s) {j : Nat} (h1 : 1 ≤ j) (h2 : j ≤ n) :
    ∃ p, 1 ≤ p ∧ p ≤ n ∧ s.index p = j := by
  have hm : ∀ p ∈ Icc 1 n, s.index p ∈ Icc 1 n := fun p hp => by
    rw [mem_Icc] at hp ⊢
    exact h.range p hp.1 hp.2
  have hi : Set.InjOn s.index (Icc 1 n : Finset Nat) := fun p hp q hq e => by
    rw [mem_coe, mem_Icc] at hp hq
    exact h.inj p q hp.1 hp.2 hq.1 hq.2 e
  have : (Icc 1 n).image s.index = Icc 1 n :=
    eq_of_subset_of_card_le (image_subset_iff.2 hm) (by rw [card_image_of_injOn hi])
  have hj : j ∈ (Icc 1 n).image s.index := by rw [this, mem_Icc]; exact ⟨h1, h2⟩
  obtain ⟨p, hp, e⟩ := mem_image.1 hj
  rw [mem_Icc] at hp
  exact ⟨p, hp.1, hp.2, e⟩

theorem map_index_nodup {n : Nat} {index : Nat → Nat} (hinj : ∀ p q, 1 ≤ p → p ≤ n → 1 ≤ q → q ≤ n → index p = index q → p = q)
    {lo hi : Nat} (h1 : 1 ≤ lo) (h2 : hi ≤ n) : ((upto lo hi).map index).Nodup := by
  refine (List.nodup_map_iff_inj_on (nodup_upto lo hi)).2 fun p hp q hq e => ?_
  rw [mem_upto] at hp hq
  exact hinj p q (by omega) (by omega) (by omega) (by omega) e

/-! ## The dual vector and the choice of a column -/

theorem dual_w {m n : Nat} {A : Nat → Nat → K} {b : Nat → K} {s : St K} (h : Core m n A b s) {iz : Nat} (h1 : s.iz1 ≤ iz) (h2 : iz ≤ n) :
    (dual m n s).w (s.index iz) = ∑ l ∈ Icc s.npp1 m, s.a (s.index iz) l * s.b l := by
  have hn := map_index_nodup h.inj (lo := s.iz1) (hi := n) (by rw [h.iz1]; omega) le_rfl
  have := (fold_put' s.index (fun iz (_ : K) => addUp 0 s.npp1 m fun l => s.a (s.index iz) l * s.b l) (upto s.iz1 n) hn s.w).1 iz
    (mem_upto.2 ⟨h1, h2⟩)
  unfold dual
  simp only
  rw [this, addUp_eq, zero_add]

theorem foldl_findMax (w : Nat → K) (index : Nat → Nat) (L : List Nat) (r : K × Nat) :
    ∃ r', L.foldl (fun r iz => if w (index iz) > r.1 then (w (index iz), iz) else r) r = r' ∧ r.1 ≤ r'.1 ∧
      (∀ iz ∈ L, w (index iz) ≤ r'.1) ∧ (r' = r ∨ r'.2 ∈ L ∧ r'.1 = w (index r'.2)) := by
  induction L generalizing r with
  | nil => exact ⟨r, rfl, le_rfl, by simp, Or.inl rfl⟩
  | cons a L ih =>
    simp only [List.foldl_cons]
    by_cases h : w (index a) > r.1
    · rw [if_pos h]
      obtain ⟨r', e, h1, h2, h3⟩ := ih (w (index a), a)
      refine ⟨r', e, h.le.trans h1, ?_, ?_⟩
      · intro iz hiz
        rcases List.mem_cons.1 hiz with rfl | hiz
        · exact h1
        · exact h2 iz hiz
      · rcases h3 with rfl | ⟨h3, h4⟩
        · exact Or.inr ⟨by simp, rfl⟩
        · exact Or.inr ⟨by simp [h3], h4⟩
    · rw [if_neg h]
      obtain ⟨r', e, h1, h2, h3⟩ := ih r
      refine ⟨r', e, h1, ?_, ?_⟩
      · intro iz hiz
        rcases List.mem_cons.1 hiz with rfl | hiz
        · exact (not_lt.1 h).trans h1
        · exact h2 iz hiz
      · rcases h3 with h3 | ⟨h3, h4⟩
        · exact Or.inl h3
        · exact Or.inr ⟨by simp [h3], h4⟩

/-- What the choice of a column gives: the column is reflected, the right-hand side too. -/
structure Chosen (m n : Nat) (s : St K) (iz j : Nat) (up : K) (s' : St K) (T : (Nat → K) → Nat → K) : Prop where
  lo : s.iz1 ≤ iz
  hi : iz ≤ n
  col : j = s.index iz
  refl : Reflects m s.npp1 (s.a j) (s'.a j) up T
  others : ∀ k, k ≠ j → s'.a k = s.a k
  zz : ∀ l, 1 ≤ l → l ≤ m → s'.zz l = T s.b l
  test : 0 < s'.zz s.npp1 / s'.a j s.npp1
  nonzero : s'.a j s.npp1 ≠ 0
  rest : s' = { s with a := s'.a, zz := s'.zz }

/-- The first choice is taken: nothing is ever rejected. -/
theorem select_spec {sqrt : K → K} (hs : IsSqrt sqrt) (junk : K) {m n : Nat} {s : St K} (h0 : 1 ≤ s.npp1) (hm : s.npp1 ≤ m)
    (hw : ∀ iz, s.iz1 ≤ iz → iz ≤ n → s.w (s.index iz) = ∑ l ∈ Icc s.npp1 m, s.a (s.index iz) l * s.b l) (fuel : Nat) :
    (select sqrt junk m n (fuel + 1) s = some (.done s) ∧ ∀ iz, s.iz1 ≤ iz → iz ≤ n → s.w (s.index iz) ≤ 0) ∨
    ∃ s' iz j up T, select sqrt junk m n (fuel + 1) s = some (.chosen s' iz j up) ∧ Chosen m n s iz j up s' T := by
  obtain ⟨r, er, -, g2, g3⟩ := foldl_findMax s.w s.index (upto s.iz1 n) (0, 0)
  have er' : findMax n s = r := er
  by_cases hr : r.1 ≤ 0
  · left
    refine ⟨?_, fun iz h1 h2 => (g2 iz (mem_upto.2 ⟨h1, h2⟩)).trans hr⟩
    rw [select]
    simp only [er', if_pos hr]
  · right
    obtain ⟨k3, g4⟩ : r.2 ∈ upto s.iz1 n ∧ r.1 = s.w (s.index r.2) := by
      rcases g3 with rfl | g3
      · exact absurd le_rfl hr
      · exact g3
    rw [mem_upto] at k3
    have hwj := hw r.2 k3.1 k3.2
    rw [← g4] at hwj
    set j := s.index r.2 with hj
    have hne : ∑ l ∈ Icc s.npp1 m, s.a j l * s.a j l ≠ 0 := by
      intro e
      apply hr
      rw [hwj]
      refine le_of_eq (sum_eq_zero fun l hl => ?_)
      have := (sum_eq_zero_iff_of_nonneg fun l _ => mul_self_nonneg (s.a j l)).1 e l hl
      rw [mul_self_eq_zero.1 this, zero_mul]
    obtain ⟨T, hT⟩ := h_reflects hs h0 hm (s.a j) junk hne
    have hd : (h1 sqrt s.npp1 (s.npp1 + 1) m (s.a j) junk).1 s.npp1 ≠ 0 := by
      intro e
      apply hne
      rw [← hT.diag, e, zero_mul]
    set u' := (h1 sqrt s.npp1 (s.npp1 + 1) m (s.a j) junk).1 with hu'
    set up := (h1 sqrt s.npp1 (s.npp1 + 1) m (s.a j) junk).2 with hup
    have hzz : ∀ l, 1 ≤ l → l ≤ m → h2 s.npp1 (s.npp1 + 1) m u' up (copy m s.b s.zz) l = T (copy m s.b s.zz) l := hT.apply _
    have hT2 : ∀ l, 1 ≤ l → l ≤ m → T (copy m s.b s.zz) l = T s.b l := by
      intro l hl1 hlm
      have e1 := hT.apply (copy m s.b s.zz) l hl1 hlm
      have e2 := hT.apply s.b l hl1 hlm
      rw [← e1, ← e2]
      have hcopy : ∀ i, 1 ≤ i → i ≤ m → copy m s.b s.zz i = s.b i := fun i a b => by rw [copy_eq, if_pos ⟨a, b⟩]
      unfold h2
      split_ifs with c1
      · exact hcopy l hl1 hlm
      · exact hcopy l hl1 hlm
      · dsimp only
        have hsum : addUp (copy m s.b s.zz s.npp1 * up) (s.npp1 + 1) m (fun i => copy m s.b s.zz i * u' i) =
            addUp (s.b s.npp1 * up) (s.npp1 + 1) m fun i => s.b i * u' i := by
          rw [addUp_eq, addUp_eq, hcopy _ h0 hm]
          congr 1
          refine sum_congr rfl fun i hi => ?_
          rw [mem_Icc] at hi
          rw [hcopy i (by omega) hi.2]
        rw [hsum]
        split_ifs with c2 c3
        · exact hcopy l hl1 hlm
        · rw [fold_upto (fun i y => y + addUp (s.b s.npp1 * up) (s.npp1 + 1) m (fun i => s.b i * u' i) * (1 / (up * u' s.npp1)) * u' i),
            fold_upto (fun i y => y + addUp (s.b s.npp1 * up) (s.npp1 + 1) m (fun i => s.b i * u' i) * (1 / (up * u' s.npp1)) * u' i),
            hcopy _ h0 hm]
          by_cases hl : l = s.npp1
          · subst hl; rw [put_self, put_self]
          · rw [put_ne _ _ hl, put_ne _ _ hl, hcopy l hl1 hlm]
        · exact hcopy l hl1 hlm
    have htest : 0 < T s.b s.npp1 / u' s.npp1 := by
      have := hT.row h0 hm s.b
      have hwp : 0 < T s.b s.npp1 * u' s.npp1 := by
        rw [this, sum_congr rfl fun l _ => mul_comm (s.b l) (s.a j l), ← hwj]
        exact not_le.1 hr
      rw [div_eq_mul_inv, ← mul_inv_cancel_right₀ hd (T s.b s.npp1)]
      have : T s.b s.npp1 * u' s.npp1 * (u' s.npp1)⁻¹ * (u' s.npp1)⁻¹ = T s.b s.npp1 * u' s.npp1 * ((u' s.npp1)⁻¹ * (u' s.npp1)⁻¹) := by ring
      rw [this]
      exact mul_pos hwp (mul_self_pos.2 (inv_ne_zero hd))
    refine ⟨{ s with a := put s.a j u', zz := h2 s.npp1 (s.npp1 + 1) m u' up (copy m s.b s.zz) }, r.2, j, up, T, ?_, ?_⟩
    · rw [select]
      simp only [er', ← hj, if_neg hr, ← hu', ← hup, put_self]
      rw [if_pos, if_pos]
      · rw [hzz _ h0 hm, hT2 _ h0 hm]; exact htest
      · have : 0 < |u' s.npp1| := abs_pos.2 hd
        linarith
    · refine ⟨k3.1, k3.2, hj, ?_, fun k hk => put_ne _ _ hk, fun l a c => ?_, ?_, ?_, rfl⟩
      · show Reflects m s.npp1 (s.a j) (put s.a j u' j) up T
        rw [put_self]; exact hT
      · exact (hzz l a c).trans (hT2 l a c)
      · show 0 < h2 s.npp1 (s.npp1 + 1) m u' up (copy m s.b s.zz) s.npp1 / put s.a j u' j s.npp1
        rw [put_self, hzz _ h0 hm, hT2 _ h0 hm]; exact htest
      · show put s.a j u' j s.npp1 ≠ 0
        rw [put_self]; exact hd

/-! ## A column is moved to the set P -/

theorem accept_spec {m n : Nat} {A : Nat → Nat → K} {b : Nat → K} {s : St K} (h : MainInv m n A b s) (hm : s.npp1 ≤ m)
    {iz j : Nat} {up : K} {s' : St K} {T : (Nat → K) → Nat → K} (hc : Chosen m n s iz j up s' T) :
    Core m n A b (accept m n s' iz j up) ∧
    (∀ l, 1 ≤ l → l ≤ m → (accept m n s' iz j up).zz l = (accept m n s' iz j up).b l) ∧
    (accept m n s' iz j up).nsetp = s.nsetp + 1 ∧
    (∀ p, 1 ≤ p → p ≤ s.nsetp → 0 < (accept m n s' iz j up).x ((accept m n s' iz j up).index p)) ∧
    (accept m n s' iz j up).x ((accept m n s' iz j up).index (s.nsetp + 1)) = 0 ∧
    0 < (accept m n s' iz j up).zz (s.nsetp + 1) / (accept m n s' iz j up).a ((accept m n s' iz j up).index (s.nsetp + 1)) (s.nsetp + 1) := by
  obtain ⟨C, hpos, -⟩ := id h
  have e1 : s'.b = s.b := by rw [hc.rest]
  have e2 : s'.index = s.index := by rw [hc.rest]
  have e3 : s'.iz1 = s.iz1 := by rw [hc.rest]
  have e4 : s'.npp1 = s.npp1 := by rw [hc.rest]
  have e5 : s'.x = s.x := by rw [hc.rest]
  have hiz1 := C.iz1
  have hnp := C.npp1
  have hlo := hc.lo
  have hhi := hc.hi
  -- the new permutation
  set index := put (put s.index iz (s.index s.iz1)) s.iz1 j with hindex
  have i1 : ∀ p, p < s.iz1 → index p = s.index p := fun p hp => by
    rw [hindex, put_ne _ _ (by omega), put_ne _ _ (by omega)]
  have i2 : index s.iz1 = j := by rw [hindex, put_self]
  have i3 : s.iz1 < iz → index iz = s.index s.iz1 := fun hp => by rw [hindex, put_ne _ _ (by omega), put_self]
  have i4 : ∀ p, s.iz1 < p → p ≠ iz → index p = s.index p := fun p h1 h2 => by rw [hindex, put_ne _ _ (by omega), put_ne _ _ h2]
  have iall : ∀ p, ∃ q, index p = s.index q ∧ (q = p ∧ p ≠ s.iz1 ∧ p ≠ iz ∨ p = s.iz1 ∧ q = iz ∨ p = iz ∧ s.iz1 < iz ∧ q = s.iz1) := by
    intro p
    by_cases a1 : p = s.iz1
    · exact ⟨iz, by rw [a1, i2, hc.col], Or.inr (Or.inl ⟨a1, rfl⟩)⟩
    · by_cases a2 : p = iz
      · refine ⟨s.iz1, by rw [a2]; exact i3 (by omega), Or.inr (Or.inr ⟨a2, by omega, rfl⟩)⟩
      · exact ⟨p, by rw [hindex, put_ne _ _ a1, put_ne _ _ a2], Or.inl ⟨rfl, a1, a2⟩⟩
  have range : ∀ p, 1 ≤ p → p ≤ n → 1 ≤ index p ∧ index p ≤ n := by
    intro p h1 h2
    obtain ⟨q, hq, hq'⟩ := iall p
    rw [hq]
    exact C.range q (by omega) (by omega)
  have inj : ∀ p q, 1 ≤ p → p ≤ n → 1 ≤ q → q ≤ n → index p = index q → p = q := by
    intro p q h1 h2 h3 h4 he
    obtain ⟨p', hp, hp'⟩ := iall p
    obtain ⟨q', hq, hq'⟩ := iall q
    rw [hp, hq] at he
    have := C.inj p' q' (by omega) (by omega) (by omega) (by omega) he
    omega
  have jr := C.range iz (by omega) hhi
  rw [← hc.col] at jr
  have hnj : ∀ p, 1 ≤ p → p ≤ n → p ≠ s.iz1 → index p ≠ j := by
    intro p h1 h2 h3 he
    exact h3 (inj p s.iz1 h1 h2 (by omega) (by omega) (he.trans i2.symm))
  -- the new matrix
  set a1 := (upto (s.iz1 + 1) n).foldl (fun a jz => put a (index jz) (h2 s.npp1 (s.npp1 + 1) m (a j) up (a (index jz)))) s'.a with ha1
  obtain ⟨f1, f2⟩ := fold_put index j (fun (pc : Nat → K) (_ : Nat) c => h2 s.npp1 (s.npp1 + 1) m pc up c) (upto (s.iz1 + 1) n)
    (map_index_nodup inj (by omega) le_rfl) (by
      intro hmem
      obtain ⟨p, hp, e⟩ := List.mem_map.1 hmem
      rw [mem_upto] at hp
      exact hnj p (by omega) hp.2 (by omega) e) s'.a
  have a1j : a1 j = s'.a j := f2 j (by
      intro hmem
      obtain ⟨p, hp, e⟩ := List.mem_map.1 hmem
      rw [mem_upto] at hp
      exact hnj p (by omega) hp.2 (by omega) e)
  have a1z : ∀ p, s.iz1 < p → p ≤ n → ∀ l, 1 ≤ l → l ≤ m → a1 (index p) l = T (s.a (index p)) l := by
    intro p h1 h2 l h3 h4
    have := f1 p (mem_upto.2 ⟨h1, h2⟩)
    rw [ha1, this, hc.refl.apply _ l h3 h4, hc.others _ (hnj p (by omega) h2 (by omega))]
  have a1p : ∀ p, 1 ≤ p → p < s.iz1 → a1 (index p) = s.a (index p) := by
    intro p h1 h2
    rw [ha1, f2, hc.others _ (hnj p h1 (by omega) (by omega))]
    intro hmem
    obtain ⟨q, hq, e⟩ := List.mem_map.1 hmem
    rw [mem_upto] at hq
    have := inj q p (by omega) (by omega) h1 (by omega) e
    omega
  set a2 := if s.npp1 ≠ m then put a1 j ((upto (s.npp1 + 1) m).foldl (fun c l => put c l 0) (a1 j)) else a1 with ha2
  have a2o : ∀ k, k ≠ j → a2 k = a1 k := by
    intro k hk
    rw [ha2]
    split_ifs
    · exact put_ne _ _ hk
    · rfl
  have a2j : ∀ l, 1 ≤ l → l ≤ m → a2 j l = if l ≤ s.npp1 then s'.a j l else 0 := by
    intro l h1 h2
    rw [ha2]
    split_ifs with g1 g2 g3
    · rw [put_self, fold_upto (fun _ _ => 0), if_neg (by omega), a1j]
    · rw [put_self, fold_upto (fun _ _ => 0), if_pos (by omega)]
    · rw [a1j]
    · omega
  have a2T : ∀ l, 1 ≤ l → l ≤ m → a2 j l = T (s.a j) l := by
    intro l h1 h2
    rw [a2j l h1 h2, hc.refl.pivot l h1 h2]
    split_ifs with g1 g2 g3 g4 g5
    · rw [hc.refl.others l (by omega)]
    · rw [g3]
    · omega
    · omega
    · omega
    · rfl
  have hfix : ∀ p, 1 ≤ p → p < s.iz1 → ∀ l, T (s.a (index p)) l = s.a (index p) l := by
    intro p h1 h2 l
    refine hc.refl.fixed _ (fun i h3 h4 => ?_) l
    rw [i1 p h2]
    exact C.low p h1 (by omega) i (by omega) h4
  have hacc : accept m n s' iz j up =
      { s' with a := a2, b := copy m s'.zz s'.b, index := index, iz1 := s.iz1 + 1, nsetp := s.npp1, npp1 := s.npp1 + 1, w := put s'.w j 0 } := by
    unfold accept
    simp only [e2, e3, e4, ← hindex]
    congr 1
    rw [ha2, ha1]
    by_cases hle : s.iz1 + 1 ≤ n
    · rw [if_pos hle]
    · rw [if_neg hle, show upto (s.iz1 + 1) n = [] by unfold upto; rw [show n + 1 - (s.iz1 + 1) = 0 by omega]; rfl]
      rfl
  rw [hacc]
  have hb : ∀ l, 1 ≤ l → l ≤ m → copy m s'.zz s'.b l = s'.zz l := fun l h1 h2 => by rw [copy_eq, if_pos ⟨h1, h2⟩]
  have hsame : Same m n s.a s.b a2 (copy m s'.zz s'.b) := by
    refine Same.of_iso hc.refl.iso (fun k h1 h2 l h3 h4 => ?_) fun l h1 h2 => (hb l h1 h2).trans (hc.zz l h1 h2)
    obtain ⟨p, p1, p2, rfl⟩ : ∃ p, 1 ≤ p ∧ p ≤ n ∧ index p = k := by
      obtain ⟨p, p1, p2, rfl⟩ := C.onto h1 h2
      by_cases g1 : p = s.iz1
      · by_cases g2 : s.iz1 < iz
        · exact ⟨iz, by omega, hhi, by rw [i3 g2, g1]⟩
        · exact ⟨s.iz1, by omega, by omega, by rw [i2, hc.col, g1, show iz = s.iz1 by omega]⟩
      · by_cases g2 : p = iz
        · exact ⟨s.iz1, by omega, by omega, by rw [i2, hc.col, g2]⟩
        · exact ⟨p, p1, p2, by rw [hindex, put_ne _ _ g1, put_ne _ _ g2]⟩
    rcases lt_trichotomy p s.iz1 with g | g | g
    · rw [a2o _ (hnj p p1 p2 (by omega)), a1p p p1 g, hfix p p1 g]
    · rw [g, i2]; exact a2T l h3 h4
    · rw [a2o _ (hnj p p1 p2 (by omega)), a1z p g p2 l h3 h4]
  refine ⟨⟨range, inj, ?_, rfl, hm, ?_, C.same.trans hsame, ?_, ?_, ?_⟩, ?_, ?_, ?_, ?_, ?_⟩
  · show s.iz1 + 1 = s.npp1 + 1; omega
  · show s.npp1 ≤ n; omega
  · intro p h1 h2 l h3 h4
    change p ≤ s.npp1 at h2
    show a2 (index p) l = 0
    by_cases g : p < s.iz1
    · rw [a2o _ (hnj p h1 (by omega) (by omega)), a1p p h1 g, i1 p g]
      exact C.low p h1 (by omega) l h3 h4
    · have : p = s.iz1 := by omega
      rw [this, i2, a2j l (by omega) h4, if_neg (by omega)]
  · intro p h1 h2
    change p ≤ s.npp1 at h2
    show a2 (index p) p ≠ 0
    by_cases g : p < s.iz1
    · rw [a2o _ (hnj p h1 (by omega) (by omega)), a1p p h1 g, i1 p g]
      exact C.diag p h1 (by omega)
    · have : p = s.iz1 := by omega
      rw [this, i2, a2j s.iz1 (by omega) (by omega), if_pos (by omega)]
      rw [show s.iz1 = s.npp1 by omega]
      exact hc.nonzero
  · intro p h1 h2
    change s.npp1 < p at h1
    show s'.x (index p) = 0
    rw [e5]
    obtain ⟨q, hq, hq'⟩ := iall p
    rw [hq]
    exact C.zero q (by omega) (by omega)
  · intro l h1 h2
    exact (hb l h1 h2).symm
  · show s.npp1 = s.nsetp + 1
    exact hnp
  · intro p h1 h2
    show 0 < s'.x (index p)
    rw [e5, i1 p (by omega)]
    exact hpos p h1 h2
  · show s'.x (index (s.nsetp + 1)) = 0
    rw [e5, ← hiz1, i2, hc.col]
    exact C.zero iz (by omega) hhi
  · show 0 < s'.zz (s.nsetp + 1) / a2 (index (s.nsetp + 1)) (s.nsetp + 1)
    rw [← hiz1, i2, a2j s.iz1 (by omega) (by omega), if_pos (by omega), show s.iz1 = s.npp1 by omega]
    exact hc.test

/-! ## The triangular system -/

/-- One step of the solution of the triangular system. -/
def solveStep (s : St K) (r : (Nat → K) × Nat) (l : Nat) : (Nat → K) × Nat :=
  let ip := s.nsetp + 1 - l
  let zz := if l ≠ 1 then (upto 1 ip).foldl (fun zz ii => put zz ii (zz ii - s.a r.2 ii * zz (ip + 1))) r.1 else r.1
  (put zz ip (zz ip / s.a (s.index ip) ip), s.index ip)

omit [IsStrictOrderedRing K] in
theorem solve_loop {m n : Nat} {A : Nat → Nat → K} {b : Nat → K} {s : St K} (C : Core m n A b s)
    (hz : ∀ l, 1 ≤ l → l ≤ m → s.zz l = s.b l) (k : Nat) (hk : k + 1 ≤ s.nsetp) :
    ∃ zz, (List.range' 1 (k + 1)).foldl (solveStep s) (s.zz, 0) = (zz, s.index (s.nsetp - k)) ∧
      (∀ r, 1 ≤ r → r < s.nsetp - k → zz r = s.b r - ∑ q ∈ Icc (s.nsetp - k + 1) s.nsetp, s.a (s.index q) r * zz q) ∧
      (∀ r, s.nsetp - k ≤ r → r ≤ s.nsetp → ∑ q ∈ Icc r s.nsetp, s.a (s.index q) r * zz q = s.b r) ∧
      zz s.nsetp = s.zz s.nsetp / s.a (s.index s.nsetp) s.nsetp := by
  have hrows := C.rows
  induction k with
  | zero =>
    refine ⟨put s.zz s.nsetp (s.zz s.nsetp / s.a (s.index s.nsetp) s.nsetp), ?_, ?_, ?_, put_self _ _ _⟩
    · show solveStep s (s.zz, 0) 1 = _
      unfold solveStep
      simp
    · intro r h1 h2
      rw [Nat.sub_zero] at h2 ⊢
      rw [put_ne _ _ (by omega), hz r h1 (by omega), Icc_eq_empty (by omega), sum_empty, sub_zero]
    · intro r h1 h2
      have hr : r = s.nsetp := by omega
      rw [hr, Icc_self, sum_singleton, put_self, hz s.nsetp (by omega) hrows, mul_div_cancel₀]
      exact C.diag s.nsetp (by omega) le_rfl
  | succ k ih =>
    obtain ⟨zz, e, h1, h2, h3⟩ := ih (by omega)
    obtain ⟨q, hq⟩ : ∃ q, q + 1 = s.nsetp - k := ⟨s.nsetp - k - 1, by omega⟩
    have hq2 : s.nsetp - (k + 1) = q := by omega
    have hqn : q + 1 ≤ s.nsetp := by omega
    rw [← hq] at e h1 h2
    rw [hq2]
    let zz1 : Nat → K := (upto 1 q).foldl (fun zz ii => put zz ii (zz ii - s.a (s.index (q + 1)) ii * zz (q + 1))) zz
    have hz1 : ∀ r, zz1 r = if 1 ≤ r ∧ r ≤ q then zz r - s.a (s.index (q + 1)) r * zz (q + 1) else zz r :=
      fold_upto_read (q + 1) (fun y i c => c - s.a (s.index (q + 1)) i * y) 1 q (by omega) zz
    let zz2 : Nat → K := put zz1 q (zz1 q / s.a (s.index q) q)
    have hkeep : ∀ r, q < r → zz2 r = zz r := fun r hr => by
      show put zz1 q _ r = _
      rw [put_ne _ _ (by omega), hz1, if_neg (by omega)]
    have hd := C.diag q (by omega) (by omega)
    have hsum : ∀ c : Nat → K, ∑ i ∈ Icc (q + 1) s.nsetp, c i * zz2 i = c (q + 1) * zz (q + 1) + ∑ i ∈ Icc (q + 1 + 1) s.nsetp, c i * zz i := by
      intro c
      rw [sum_from hqn, hkeep _ (by omega)]
      congr 1
      refine sum_congr rfl fun i hi => ?_
      rw [mem_Icc] at hi
      rw [hkeep i (by omega)]
    refine ⟨zz2, ?_, ?_, ?_, ?_⟩
    · rw [List.range'_1_concat, List.foldl_append, e]
      show solveStep s (zz, s.index (q + 1)) (1 + (k + 1)) = _
      unfold solveStep
      have : s.nsetp + 1 - (1 + (k + 1)) = q := by omega
      simp only [this]
      rw [if_pos (by omega)]
    · intro r g1 g2
      rw [hsum, show zz2 r = zz1 r from put_ne _ _ (by omega), hz1, if_pos (by omega), h1 r g1 (by omega)]
      ring
    · intro r g1 g2
      by_cases g : r = q
      · rw [g, sum_from (by omega), hsum, show zz2 q = zz1 q / s.a (s.index q) q from put_self _ _ _, mul_div_cancel₀ _ hd, hz1,
          if_pos (by omega), h1 q (by omega) (by omega)]
        ring
      · rw [← h2 r (by omega) g2]
        refine sum_congr rfl fun i hi => ?_
        rw [mem_Icc] at hi
        rw [hkeep i (by omega)]
    · rw [hkeep _ (by omega), h3]

omit [IsStrictOrderedRing K] in
theorem solve_spec {m n : Nat} {A : Nat → Nat → K} {b : Nat → K} {s : St K} (C : Core m n A b s)
    (hz : ∀ l, 1 ≤ l → l ≤ m → s.zz l = s.b l) :
    ∃ zz, solve s = { s with zz := zz } ∧ Solves { s with zz := zz } zz ∧
      (1 ≤ s.nsetp → zz s.nsetp = s.zz s.nsetp / s.a (s.index s.nsetp) s.nsetp) := by
  refine ⟨_, rfl, ?_⟩
  rcases Nat.eq_zero_or_pos s.nsetp with h0 | h0
  · refine ⟨fun l h1 h2 => ?_, fun h => by omega⟩
    change l ≤ s.nsetp at h2
    omega
  · obtain ⟨zz, e, -, h2, h3⟩ := solve_loop C hz (s.nsetp - 1) (by omega)
    have e' : ((upto 1 s.nsetp).foldl (solveStep s) (s.zz, 0)).1 = zz := by
      unfold upto
      rw [show s.nsetp + 1 - 1 = s.nsetp - 1 + 1 by omega, e]
    show Solves { s with zz := ((upto 1 s.nsetp).foldl (solveStep s) (s.zz, 0)).1 } ((upto 1 s.nsetp).foldl (solveStep s) (s.zz, 0)).1 ∧
      (_ → ((upto 1 s.nsetp).foldl (solveStep s) (s.zz, 0)).1 s.nsetp = _)
    rw [e']
    refine ⟨fun l h4 h5 => ?_, fun _ => h3⟩
    change l ≤ s.nsetp at h5
    show ∑ p ∈ Icc 1 s.nsetp, s.a (s.index p) l * zz p = s.b l
    have hr := C.rows
    rw [sum_split h4 h5, sum_eq_zero fun p hp => by
      rw [mem_Icc] at hp
      rw [C.low p hp.1 (by omega) l (by omega) (by omega), zero_mul], zero_add, ← sum_from h5 fun p => s.a (s.index p) l * zz p]
    exact h2 l (by omega) h5

/-! ## Columns leave the set P -/

omit [Field K] [LinearOrder K] [IsStrictOrderedRing K] in
theorem fold_skip {α : Type*} (F : α → α) (n ii : Nat) (a : Nat → α) (k : Nat) :
    (upto 1 n).foldl (fun a l => if l ≠ ii then put a l (F (a l)) else a) a k = if (1 ≤ k ∧ k ≤ n) ∧ k ≠ ii then F (a k) else a k := by
  have hn := nodup_upto 1 n
  have hm : (1 ≤ k ∧ k ≤ n) ↔ k ∈ upto 1 n := mem_upto.symm
  rw [if_congr (and_congr_left' hm) rfl rfl]
  generalize upto 1 n = L at hn
  clear hm
  induction L generalizing a with
  | nil => simp
  | cons l L ih =>
    rw [List.nodup_cons] at hn
    rw [List.foldl_cons, ih _ hn.2]
    by_cases hl : l = ii
    · rw [if_neg (not_not.2 hl)]
      by_cases hk : k = l
      · rw [if_neg (by rintro ⟨-, h⟩; exact h (hk.trans hl)), if_neg (by rintro ⟨-, h⟩; exact h (hk.trans hl))]
      · simp only [List.mem_cons, hk, false_or]
    · rw [if_pos hl]
      by_cases hk : k = l
      · subst hk
        rw [if_neg (by rintro ⟨h, -⟩; exact hn.1 h), if_pos ⟨by simp, hl⟩, put_self]
      · rw [put_ne _ _ hk]
        simp only [List.mem_cons, hk, false_or]

/-- The state during the loop of rotations, behind the step for column `J`. -/
structure Rot (m n : Nat) (A : Nat → Nat → K) (b : Nat → K) (s0 : St K) (jj J : Nat) (s : St K) : Prop where
  index : ∀ p, s.index p = if jj ≤ p ∧ p < J then s0.index (p + 1) else s0.index p
  same : Same m n A b s.a s.b
  lowL : ∀ p, 1 ≤ p → p < jj → ∀ l, p < l → l ≤ m → s.a (s0.index p) l = 0
  diagL : ∀ p, 1 ≤ p → p < jj → s.a (s0.index p) p ≠ 0
  lowM : ∀ p, jj ≤ p → p < J → ∀ l, p < l → l ≤ m → s.a (s0.index (p + 1)) l = 0
  diagM : ∀ p, jj ≤ p → p < J → s.a (s0.index (p + 1)) p ≠ 0
  lowR : ∀ p, J < p → p ≤ s0.nsetp → ∀ l, p < l → l ≤ m → s.a (s0.index p) l = 0
  diagR : ∀ p, J < p → p ≤ s0.nsetp → s.a (s0.index p) p ≠ 0
  rest : s = { s0 with a := s.a, b := s.b, index := s.index }

theorem rotate_spec {sqrt : K → K} (hs : IsSqrt sqrt) {m n : Nat} {A : Nat → Nat → K} {b : Nat → K} {s0 : St K} (C : Core m n A b s0)
    {jj J : Nat} (h1 : 1 ≤ jj) (hJ : jj ≤ J) (hJn : J + 1 ≤ s0.nsetp) {s : St K} (R : Rot m n A b s0 jj J s) :
    Rot m n A b s0 jj (J + 1) (rotate sqrt n s (J + 1)) := by
  have hrows := C.rows
  have hcols := C.cols
  have hii : s.index (J + 1) = s0.index (J + 1) := by rw [R.index, if_neg (by omega)]
  obtain ⟨c1, c2, c3, c4⟩ := g1_spec hs (s.a (s0.index (J + 1)) J) (s.a (s0.index (J + 1)) (J + 1))
  set g := g1 sqrt (s.a (s0.index (J + 1)) J) (s.a (s0.index (J + 1)) (J + 1)) with hg
  set ii := s0.index (J + 1) with hiid
  set a' := (rotate sqrt n s (J + 1)).a with ha'
  have ea : a' = (upto 1 n).foldl (fun a l => if l ≠ ii then put a l (g2 g.1 g.2.1 (J + 1) (a l)) else a)
      (put s.a ii (put (put (s.a ii) J g.2.2) (J + 1) 0)) := by
    rw [ha']
    unfold rotate
    simp only [hii, Nat.add_sub_cancel, ← hiid, ← hg]
  have eb : (rotate sqrt n s (J + 1)).b = g2 g.1 g.2.1 (J + 1) s.b := by
    unfold rotate
    simp only [hii, Nat.add_sub_cancel, ← hiid, ← hg]
  have ei : (rotate sqrt n s (J + 1)).index = put s.index J ii := by
    unfold rotate
    simp only [hii, Nat.add_sub_cancel, ← hiid]
  have hcol : ∀ k, 1 ≤ k → k ≤ n → ∀ l, a' k l = g2 g.1 g.2.1 (J + 1) (s.a k) l := by
    intro k k1 k2 l
    rw [ea, fold_skip]
    by_cases hk : k = ii
    · rw [if_neg (by rintro ⟨-, h⟩; exact h hk), hk, put_self]
      unfold g2
      rw [Nat.add_sub_cancel]
      by_cases g1 : l = J + 1
      · rw [g1, put_self, put_self, c3]
      · rw [put_ne _ _ g1, put_ne _ _ g1]
        by_cases g2 : l = J
        · rw [g2, put_self, put_self, c2]
        · rw [put_ne _ _ g2, put_ne _ _ g2]
    · rw [if_pos ⟨⟨k1, k2⟩, hk⟩, put_ne _ _ hk]
  have hkeep : ∀ k, 1 ≤ k → k ≤ n → ∀ l, l ≠ J → l ≠ J + 1 → a' k l = s.a k l := by
    intro k k1 k2 l l1 l2
    rw [hcol k k1 k2, g2_other _ _ _ l2 (by rw [Nat.add_sub_cancel]; exact l1)]
  have hzero : ∀ k, 1 ≤ k → k ≤ n → s.a k J = 0 → s.a k (J + 1) = 0 → ∀ l, a' k l = s.a k l := by
    intro k k1 k2 z1 z2 l
    by_cases g1 : l = J + 1
    · rw [hcol k k1 k2, g1]; unfold g2; rw [put_self, Nat.add_sub_cancel, z1, z2]; ring
    · by_cases g3 : l = J
      · rw [hcol k k1 k2, g3]; unfold g2; rw [put_ne _ _ (by omega), Nat.add_sub_cancel, put_self, z1, z2]; ring
      · exact hkeep k k1 k2 l g3 g1
  have hr : ∀ p, 1 ≤ p → p ≤ s0.nsetp → 1 ≤ s0.index p ∧ s0.index p ≤ n := fun p p1 p2 => C.range p p1 (by omega)
  refine ⟨?_, ?_, ?_, ?_, ?_, ?_, ?_, ?_, ?_⟩
  · intro p
    rw [ei]
    by_cases hp : p = J
    · rw [hp, put_self, if_pos (by omega)]
    · rw [put_ne _ _ hp, R.index p]
      exact if_congr (by omega) rfl rfl
  · refine R.same.trans (Same.of_iso (iso_rotate (m := m) (j := J + 1) (by omega) (by omega) g.1 g.2.1 c1) (fun k k1 k2 l _ _ => hcol k k1 k2 l) ?_)
    intro l _ _
    rw [eb]
  · intro p p1 p2 l l1 l2
    obtain ⟨r1, r2⟩ := hr p p1 (by omega)
    rw [← ha', hzero _ r1 r2 (R.lowL p p1 p2 J (by omega) (by omega)) (R.lowL p p1 p2 (J + 1) (by omega) (by omega)) l]
    exact R.lowL p p1 p2 l l1 l2
  · intro p p1 p2
    obtain ⟨r1, r2⟩ := hr p p1 (by omega)
    rw [← ha', hkeep _ r1 r2 p (by omega) (by omega)]
    exact R.diagL p p1 p2
  · intro p p1 p2 l l1 l2
    obtain ⟨r1, r2⟩ := hr (p + 1) (by omega) (by omega)
    by_cases hp : p = J
    · subst hp
      rw [← ha', ← hiid]
      by_cases g1 : l = p + 1
      · rw [hcol ii r1 r2, g1]; unfold g2; rw [put_self, Nat.add_sub_cancel, c3]
      · rw [hkeep ii r1 r2 l (by omega) g1]
        exact R.lowR (p + 1) (by omega) hJn l (by omega) l2
    · rw [← ha', hzero _ r1 r2 (R.lowM p p1 (by omega) J (by omega) (by omega)) (R.lowM p p1 (by omega) (J + 1) (by omega) (by omega)) l]
      exact R.lowM p p1 (by omega) l l1 l2
  · intro p p1 p2
    obtain ⟨r1, r2⟩ := hr (p + 1) (by omega) (by omega)
    by_cases hp : p = J
    · subst hp
      rw [← ha', ← hiid, hcol ii r1 r2]
      unfold g2
      rw [put_ne _ _ (by omega), Nat.add_sub_cancel, put_self, c2]
      intro e
      rw [e, zero_mul] at c4
      have hd := R.diagR (p + 1) (by omega) hJn
      have := mul_self_pos.2 hd
      have h2 := mul_self_nonneg (s.a ii p)
      linarith
    · rw [← ha', hkeep _ r1 r2 p (by omega) (by omega)]
      exact R.diagM p p1 (by omega)
  · intro p p1 p2 l l1 l2
    obtain ⟨r1, r2⟩ := hr p (by omega) p2
    rw [← ha', hkeep _ r1 r2 l (by omega) (by omega)]
    exact R.lowR p (by omega) p2 l l1 l2
  · intro p p1 p2
    obtain ⟨r1, r2⟩ := hr p (by omega) p2
    rw [← ha', hkeep _ r1 r2 p (by omega) (by omega)]
    exact R.diagR p (by omega) p2
  · unfold rotate
    simp only
    rw [R.rest]

theorem rotations_spec {sqrt : K → K} (hs : IsSqrt sqrt) {m n : Nat} {A : Nat → Nat → K} {b : Nat → K} {s0 : St K} (C : Core m n A b s0)
    {jj : Nat} (h1 : 1 ≤ jj) (k : Nat) (hk : jj + k ≤ s0.nsetp) :
    Rot m n A b s0 jj (jj + k) ((List.range' (jj + 1) k).foldl (rotate sqrt n) s0) := by
  induction k with
  | zero =>
    exact ⟨fun p => by rw [if_neg (by omega)]; rfl, C.same, fun p p1 p2 => C.low p p1 (by omega), fun p p1 p2 => C.diag p p1 (by omega),
      fun p p1 p2 => by omega, fun p p1 p2 => by omega, fun p p1 p2 => C.low p (by omega) p2, fun p p1 p2 => C.diag p (by omega) p2, rfl⟩
  | succ k ih =>
    rw [List.range'_1_concat, List.foldl_append]
    have := rotate_spec hs C h1 (by omega) (by omega) (ih (by omega))
    rw [show jj + 1 + k = jj + k + 1 by omega]
    exact this

/-- One removal. -/
def removeOne (sqrt : K → K) (n jj : Nat) (s : St K) : St K :=
  let i := s.index jj
  let s := { s with x := put s.x i 0 }
  let s := if jj ≠ s.nsetp then (upto (jj + 1) s.nsetp).foldl (rotate sqrt n) s else s
  { s with npp1 := s.nsetp, nsetp := s.nsetp - 1, iz1 := s.iz1 - 1, index := put s.index (s.iz1 - 1) i }

theorem removeOne_spec {sqrt : K → K} (hs : IsSqrt sqrt) {m n : Nat} {A : Nat → Nat → K} {b : Nat → K} {s : St K} (C : Core m n A b s)
    {jj : Nat} (h1 : 1 ≤ jj) (h2 : jj ≤ s.nsetp) :
    Core m n A b (removeOne sqrt n jj s) ∧ (removeOne sqrt n jj s).nsetp = s.nsetp - 1 := by
  have hrows := C.rows
  have hcols := C.cols
  have hiz := C.iz1
  let s0 : St K := { s with x := put s.x (s.index jj) 0 }
  have hne : ∀ p, s.nsetp < p → p ≤ n → s.index p ≠ s.index jj := fun p p1 p2 e => by
    have := C.inj p jj (by omega) p2 h1 (by omega) e
    omega
  have C0 : Core m n A b s0 := ⟨C.range, C.inj, C.iz1, C.npp1, C.rows, C.cols, C.same, C.low, C.diag, fun p p1 p2 => by
    show put s.x (s.index jj) 0 (s.index p) = 0
    rw [put_ne _ _ (hne p p1 p2)]; exact C.zero p p1 p2⟩
  have R := rotations_spec hs C0 h1 (s.nsetp - jj) (show jj + (s.nsetp - jj) ≤ s.nsetp by omega)
  set s1 := (List.range' (jj + 1) (s.nsetp - jj)).foldl (rotate sqrt n) s0 with hs1
  rw [show jj + (s.nsetp - jj) = s.nsetp by omega] at R
  have hrest := R.rest
  have k1 : s1.nsetp = s.nsetp := by rw [hrest]
  have k2 : s1.iz1 = s.iz1 := by rw [hrest]
  have k3 : s1.x = put s.x (s.index jj) 0 := by rw [hrest]
  have hrem : removeOne sqrt n jj s =
      { s1 with npp1 := s.nsetp, nsetp := s.nsetp - 1, iz1 := s.nsetp, index := put s1.index s.nsetp (s.index jj) } := by
    have e : (if jj ≠ s0.nsetp then (upto (jj + 1) s0.nsetp).foldl (rotate sqrt n) s0 else s0) = s1 := by
      by_cases h : jj = s.nsetp
      · rw [if_neg (not_not.2 h), hs1, h, Nat.sub_self]; rfl
      · rw [if_pos h, hs1]
        unfold upto
        rw [show s0.nsetp + 1 - (jj + 1) = s.nsetp - jj from Nat.add_sub_add_right _ _ _]
    have e' : removeOne sqrt n jj s = { (if jj ≠ s0.nsetp then (upto (jj + 1) s0.nsetp).foldl (rotate sqrt n) s0 else s0) with
        npp1 := (if jj ≠ s0.nsetp then (upto (jj + 1) s0.nsetp).foldl (rotate sqrt n) s0 else s0).nsetp,
        nsetp := (if jj ≠ s0.nsetp then (upto (jj + 1) s0.nsetp).foldl (rotate sqrt n) s0 else s0).nsetp - 1,
        iz1 := (if jj ≠ s0.nsetp then (upto (jj + 1) s0.nsetp).foldl (rotate sqrt n) s0 else s0).iz1 - 1,
        index := put (if jj ≠ s0.nsetp then (upto (jj + 1) s0.nsetp).foldl (rotate sqrt n) s0 else s0).index
          ((if jj ≠ s0.nsetp then (upto (jj + 1) s0.nsetp).foldl (rotate sqrt n) s0 else s0).iz1 - 1) (s.index jj) } := rfl
    rw [e', e, k1, k2, hiz, Nat.add_sub_cancel]
  rw [hrem]
  set index := put s1.index s.nsetp (s.index jj) with hindex
  have iall : ∀ p, ∃ q, index p = s.index q ∧ (p < jj ∧ q = p ∨ jj ≤ p ∧ p < s.nsetp ∧ q = p + 1 ∨ p = s.nsetp ∧ q = jj ∨ s.nsetp < p ∧ q = p) := by
    intro p
    have hi := R.index p
    rcases lt_trichotomy p s.nsetp with g | g | g
    · by_cases g' : jj ≤ p
      · exact ⟨p + 1, by rw [hindex, put_ne _ _ (by omega), hi, if_pos ⟨g', g⟩], by omega⟩
      · exact ⟨p, by rw [hindex, put_ne _ _ (by omega), hi, if_neg (by omega)], by omega⟩
    · exact ⟨jj, by rw [hindex, g, put_self], by omega⟩
    · exact ⟨p, by rw [hindex, put_ne _ _ (by omega), hi, if_neg (by omega)], by omega⟩
  refine ⟨⟨?_, ?_, ?_, ?_, ?_, ?_, R.same, ?_, ?_, ?_⟩, rfl⟩
  · intro p p1 p2
    obtain ⟨q, e, hq⟩ := iall p
    show 1 ≤ index p ∧ index p ≤ n
    rw [e]
    exact C.range q (by omega) (by omega)
  · intro p q p1 p2 q1 q2 e
    change index p = index q at e
    obtain ⟨p', e1, hp'⟩ := iall p
    obtain ⟨q', e2, hq'⟩ := iall q
    rw [e1, e2] at e
    have := C.inj p' q' (by omega) (by omega) (by omega) (by omega) e
    omega
  · show s.nsetp = s.nsetp - 1 + 1; omega
  · show s.nsetp = s.nsetp - 1 + 1; omega
  · show s.nsetp - 1 ≤ m; omega
  · show s.nsetp - 1 ≤ n; omega
  · intro p p1 p2 l l1 l2
    change p ≤ s.nsetp - 1 at p2
    show s1.a (index p) l = 0
    obtain ⟨q, e, hq⟩ := iall p
    rw [e]
    rcases hq with ⟨g, rfl⟩ | ⟨g, g', rfl⟩ | hq | hq
    · exact R.lowL q p1 g l l1 l2
    · exact R.lowM p g g' l l1 l2
    · omega
    · omega
  · intro p p1 p2
    change p ≤ s.nsetp - 1 at p2
    show s1.a (index p) p ≠ 0
    obtain ⟨q, e, hq⟩ := iall p
    rw [e]
    rcases hq with ⟨g, rfl⟩ | ⟨g, g', rfl⟩ | hq | hq
    · exact R.diagL q p1 g
    · exact R.diagM p g g'
    · omega
    · omega
  · intro p p1 p2
    change s.nsetp - 1 < p at p1
    show s1.x (index p) = 0
    rw [k3]
    obtain ⟨q, e, hq⟩ := iall p
    rw [e]
    rcases hq with hq | hq | ⟨g, rfl⟩ | ⟨g, rfl⟩
    · omega
    · omega
    · exact put_self _ _ _
    · rw [put_ne _ _ (hne q g p2)]; exact C.zero q g p2

theorem remove_spec {sqrt : K → K} (hs : IsSqrt sqrt) {m n : Nat} {A : Nat → Nat → K} {b : Nat → K} :
    ∀ (fuel : Nat) (s : St K) (jj : Nat), Core m n A b s → 1 ≤ jj → jj ≤ s.nsetp → s.nsetp ≤ fuel →
    ∃ s', remove sqrt n fuel jj s = some s' ∧ Core m n A b s' ∧ ∀ p, 1 ≤ p → p ≤ s'.nsetp → 0 < s'.x (s'.index p)
  | 0, s, jj, _, h1, h2, h3 => by omega
  | fuel + 1, s, jj, C, h1, h2, h3 => by
    obtain ⟨C', hn⟩ := removeOne_spec hs C h1 h2
    have e : remove sqrt n (fuel + 1) jj s =
        match (upto 1 (removeOne sqrt n jj s).nsetp).find? (fun p => (removeOne sqrt n jj s).x ((removeOne sqrt n jj s).index p) ≤ 0) with
        | none => some (removeOne sqrt n jj s)
        | some p => remove sqrt n fuel p (removeOne sqrt n jj s) := rfl
    rw [e]
    generalize removeOne sqrt n jj s = s' at C' hn ⊢
    cases hf : (upto 1 s'.nsetp).find? (fun p => s'.x (s'.index p) ≤ 0) with
    | none =>
      refine ⟨s', rfl, C', fun p p1 p2 => ?_⟩
      have := List.find?_eq_none.1 hf p (mem_upto.2 ⟨p1, p2⟩)
      simpa using this
    | some p =>
      have hm := mem_upto.1 (List.mem_of_find?_eq_some hf)
      exact remove_spec hs fuel s' p C' hm.1 hm.2 (by omega)

/-! ## The secondary loop -/

theorem foldl_stepSize (s : St K) (t : Nat → K) (L : List Nat) (r : K × Nat) :
    ∃ r', L.foldl (fun r ip => if s.zz ip ≤ 0 then (if r.1 > t ip then (t ip, ip) else r) else r) r = r' ∧ r'.1 ≤ r.1 ∧
      (∀ ip ∈ L, s.zz ip ≤ 0 → r'.1 ≤ t ip) ∧ (r' = r ∨ r'.2 ∈ L ∧ s.zz r'.2 ≤ 0 ∧ r'.1 = t r'.2) := by
  induction L generalizing r with
  | nil => exact ⟨r, rfl, le_rfl, by simp, Or.inl rfl⟩
  | cons a L ih =>
    simp only [List.foldl_cons]
    by_cases h : s.zz a ≤ 0
    · rw [if_pos h]
      by_cases h' : r.1 > t a
      · rw [if_pos h']
        obtain ⟨r', e, h1, h2, h3⟩ := ih (t a, a)
        refine ⟨r', e, h1.trans h'.le, ?_, ?_⟩
        · intro ip hip hz
          rcases List.mem_cons.1 hip with rfl | hip
          · exact h1
          · exact h2 ip hip hz
        · rcases h3 with rfl | ⟨h3, h4⟩
          · exact Or.inr ⟨by simp, h, rfl⟩
          · exact Or.inr ⟨by simp [h3], h4⟩
      · rw [if_neg h']
        obtain ⟨r', e, h1, h2, h3⟩ := ih r
        refine ⟨r', e, h1, ?_, ?_⟩
        · intro ip hip hz
          rcases List.mem_cons.1 hip with rfl | hip
          · exact h1.trans (not_lt.1 h')
          · exact h2 ip hip hz
        · rcases h3 with h3 | ⟨h3, h4⟩
          · exact Or.inl h3
          · exact Or.inr ⟨by simp [h3], h4⟩
    · rw [if_neg h]
      obtain ⟨r', e, h1, h2, h3⟩ := ih r
      refine ⟨r', e, h1, ?_, ?_⟩
      · intro ip hip hz
        rcases List.mem_cons.1 hip with rfl | hip
        · exact absurd hz h
        · exact h2 ip hip hz
      · rcases h3 with h3 | ⟨h3, h4⟩
        · exact Or.inl h3
        · exact Or.inr ⟨by simp [h3], h4⟩

theorem second_spec {sqrt : K → K} (hs : IsSqrt sqrt) {m n : Nat} {A : Nat → Nat → K} {b : Nat → K} :
    ∀ (left : Nat) (s : St K), SecondInv m n A b s →
    (∃ s', second sqrt m n left s = some (.limit s') ∧ SecondInv m n A b s') ∨
    ∃ left' s', second sqrt m n left s = some (.done left' s') ∧ left' < left ∧ MainInv m n A b s'
  | 0, s, h => Or.inl ⟨s, rfl, h⟩
  | left + 1, s, h => by
    obtain ⟨C, hpos, hsol⟩ := id h
    have hcols := C.cols
    have hnod := map_index_nodup C.inj (lo := 1) (hi := s.nsetp) le_rfl C.cols
    obtain ⟨r, er, r1, r2, r3⟩ := foldl_stepSize s (fun ip => -s.x (s.index ip) / (s.zz ip - s.x (s.index ip))) (upto 1 s.nsetp) (2, 0)
    have er' : stepSize s = r := er
    have ht : ∀ p, 1 ≤ p → p ≤ s.nsetp → s.zz p ≤ 0 → -s.x (s.index p) / (s.zz p - s.x (s.index p)) ≤ 1 := by
      intro p p1 p2 hz
      have hx : 0 < s.x (s.index p) := by
        rcases hpos p p1 p2 with h | ⟨-, h⟩
        · exact h
        · exact absurd hz (not_le.2 h)
      rw [div_le_one_of_neg (by linarith)]
      linarith
    by_cases h2 : r.1 = 2
    · right
      refine ⟨left, { s with x := (upto 1 s.nsetp).foldl (fun x ip => put x (s.index ip) (s.zz ip)) s.x }, ?_, by omega, ?_⟩
      · rw [second]
        simp only [er', if_pos h2]
      · obtain ⟨f1, f2⟩ := fold_put' s.index (fun ip (_ : K) => s.zz ip) (upto 1 s.nsetp) hnod s.x
        have hzp : ∀ p, 1 ≤ p → p ≤ s.nsetp → 0 < s.zz p := by
          intro p p1 p2
          by_contra hz
          have a1 := r2 p (mem_upto.2 ⟨p1, p2⟩) (not_lt.1 hz)
          have a2 := ht p p1 p2 (not_lt.1 hz)
          rw [h2] at a1
          linarith
        refine ⟨⟨C.range, C.inj, C.iz1, C.npp1, C.rows, C.cols, C.same, C.low, C.diag, fun p p1 p2 => ?_⟩, fun p p1 p2 => ?_, fun l l1 l2 => ?_⟩
        · refine (f2 _ ?_).trans ?_
          rotate_left
          · exact C.zero p p1 p2
          · intro hm
            obtain ⟨q, hq, e⟩ := List.mem_map.1 hm
            rw [mem_upto] at hq
            change s.nsetp < p at p1
            have := C.inj q p hq.1 (by omega) (by omega) p2 e
            omega
        · exact (hzp p p1 p2).trans_eq (f1 p (mem_upto.2 ⟨p1, p2⟩)).symm
        · change l ≤ s.nsetp at l2
          rw [← hsol l l1 l2]
          refine sum_congr rfl fun p hp => ?_
          rw [mem_Icc] at hp
          show s.a (s.index p) l * (upto 1 s.nsetp).foldl (fun x ip => put x (s.index ip) (s.zz ip)) s.x (s.index p) = _
          rw [f1 p (mem_upto.2 hp)]
    · obtain ⟨q1, q2, q3⟩ : r.2 ∈ upto 1 s.nsetp ∧ s.zz r.2 ≤ 0 ∧ r.1 = -s.x (s.index r.2) / (s.zz r.2 - s.x (s.index r.2)) := by
        rcases r3 with rfl | r3
        · exact absurd rfl h2
        · exact r3
      rw [mem_upto] at q1
      have C1 : Core m n A b (interpolate s r.1) := by
        obtain ⟨-, f2⟩ := fold_put' s.index (fun ip (y : K) => y + r.1 * (s.zz ip - y)) (upto 1 s.nsetp) hnod s.x
        refine ⟨C.range, C.inj, C.iz1, C.npp1, C.rows, C.cols, C.same, C.low, C.diag, fun p p1 p2 => ?_⟩
        show (interpolate s r.1).x (s.index p) = 0
        unfold interpolate
        simp only
        rw [f2]
        · exact C.zero p p1 p2
        · intro hm
          obtain ⟨q, hq, e⟩ := List.mem_map.1 hm
          rw [mem_upto] at hq
          change s.nsetp < p at p1
          have := C.inj q p hq.1 (by omega) (by omega) p2 e
          omega
      obtain ⟨s1, e1, C2, pos2⟩ := remove_spec hs n (interpolate s r.1) r.2 C1 q1.1 q1.2 C.cols
      have C3 : Core m n A b { s1 with zz := copy m s1.b s1.zz } :=
        ⟨C2.range, C2.inj, C2.iz1, C2.npp1, C2.rows, C2.cols, C2.same, C2.low, C2.diag, C2.zero⟩
      obtain ⟨zz, e2, hsol2, -⟩ := solve_spec C3 fun l l1 l2 => by
        show copy m s1.b s1.zz l = s1.b l
        rw [copy_eq, if_pos ⟨l1, l2⟩]
      have I : SecondInv m n A b (solve { s1 with zz := copy m s1.b s1.zz }) := by
        rw [e2]
        exact ⟨⟨C2.range, C2.inj, C2.iz1, C2.npp1, C2.rows, C2.cols, C2.same, C2.low, C2.diag, C2.zero⟩, fun p p1 p2 => Or.inl (pos2 p p1 p2), hsol2⟩
      have e3 : second sqrt m n (left + 1) s = second sqrt m n left (solve { s1 with zz := copy m s1.b s1.zz }) := by
        rw [second]
        simp only [er', if_neg h2, e1]
      rw [e3]
      rcases second_spec hs left _ I with h | ⟨l', s', a1, a2, a3⟩
      · exact Or.inl h
      · exact Or.inr ⟨l', s', a1, by omega, a3⟩

/-! ## The main loop -/

/-- What the main loop gives. -/
structure Final (m n : Nat) (A : Nat → Nat → K) (b : Nat → K) (s : St K) (md : Nat) : Prop where
  core : Core m n A b s
  nonneg : ∀ p, 1 ≤ p → p ≤ s.nsetp → 0 ≤ s.x (s.index p)
  mode : md = 1 ∨ md = 3
  sol : md = 1 → Solves s fun p => s.x (s.index p)
  dual : md = 1 → s.nsetp = m ∨ ∀ p, s.nsetp < p → p ≤ n → ∑ l ∈ Icc s.npp1 m, s.a (s.index p) l * s.b l ≤ 0

theorem main_spec {sqrt : K → K} (hs : IsSqrt sqrt) (junk : K) {m n : Nat} {A : Nat → Nat → K} {b : Nat → K} :
    ∀ (fuel left : Nat) (s : St K), left < fuel → MainInv m n A b s →
    ∃ s' mode, main sqrt junk m n fuel left s = some (s', mode) ∧ Final m n A b s' mode
  | 0, left, s, hl, _ => by omega
  | fuel + 1, left, s, hl, h => by
    obtain ⟨C, hpos, hsol⟩ := id h
    have hnp := C.npp1
    have hiz := C.iz1
    have hrows := C.rows
    by_cases hend : s.iz1 > n ∨ s.nsetp ≥ m
    · refine ⟨s, 1, ?_, C, fun p p1 p2 => (hpos p p1 p2).le, Or.inl rfl, fun _ => hsol, fun _ => ?_⟩
      · rw [main, if_pos hend]
      · rcases hend with hend | hend
        · right; intro p p1 p2; omega
        · left; omega
    · rw [main, if_neg hend]
      have hd : MainInv m n A b (dual m n s) :=
        ⟨⟨C.range, C.inj, C.iz1, C.npp1, C.rows, C.cols, C.same, C.low, C.diag, C.zero⟩, hpos, hsol⟩
      rcases select_spec hs junk (m := m) (n := n) (s := dual m n s) (show 1 ≤ s.npp1 by omega) (show s.npp1 ≤ m by omega)
        (fun iz h1 h2 => dual_w C h1 h2) n with ⟨e, hw⟩ | ⟨s', iz, j, up, T, e, hc⟩
      · rw [e]
        refine ⟨dual m n s, 1, rfl, hd.core, fun p p1 p2 => (hpos p p1 p2).le, Or.inl rfl, fun _ => hsol, fun _ => Or.inr fun p p1 p2 => ?_⟩
        have p1' : s.nsetp < p := p1
        have := hw p (show s.iz1 ≤ p by omega) p2
        show ∑ l ∈ Icc s.npp1 m, s.a (s.index p) l * s.b l ≤ 0
        rw [← dual_w C (show s.iz1 ≤ p by omega) p2]
        exact this
      · rw [e]
        obtain ⟨C1, a1, a2, a3, a4, a5⟩ := accept_spec hd (show s.npp1 ≤ m by omega) hc
        obtain ⟨zz, e2, hsol2, htop⟩ := solve_spec C1 a1
        have hN : (accept m n s' iz j up).nsetp = s.nsetp + 1 := a2
        have I : SecondInv m n A b (solve (accept m n s' iz j up)) := by
          rw [e2]
          refine ⟨⟨C1.range, C1.inj, C1.iz1, C1.npp1, C1.rows, C1.cols, C1.same, C1.low, C1.diag, C1.zero⟩, fun p p1 p2 => ?_, hsol2⟩
          change p ≤ (accept m n s' iz j up).nsetp at p2
          by_cases hp : p ≤ s.nsetp
          · exact Or.inl (a3 p p1 hp)
          · have hp' : p = s.nsetp + 1 := by omega
            refine Or.inr ⟨by rw [hp']; exact a4, ?_⟩
            show 0 < zz p
            have := htop (by omega)
            rw [hN] at this
            rw [hp', this]
            exact a5
        rcases second_spec hs left _ I with ⟨s1, e3, I1⟩ | ⟨l', s1, e3, hl', I1⟩
        · simp only [e3]
          refine ⟨s1, 3, rfl, I1.core, fun p p1 p2 => ?_, Or.inr rfl, fun h => by omega, fun h => by omega⟩
          rcases I1.pos p p1 p2 with h | ⟨h, -⟩
          · exact h.le
          · exact h.ge
        · simp only [e3]
          exact main_spec hs junk fuel l' s1 (by omega) I1

end QuESo.NNLS
