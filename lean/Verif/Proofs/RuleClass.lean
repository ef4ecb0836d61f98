import Verif.Proofs.RuleBuild
import Verif.Proofs.SplinePieces

/-! # Checked classes of rules -/
namespace QuESo.Rules
open QuESo.Spec Set

/-- positions increase, lie in `I`, weights are positive -/
def Ord (I : Set ℚ) (l : Rule) : Prop := (∀ q ∈ l, q.1 ∈ I ∧ 0 < q.2) ∧ l.Pairwise (fun a b => a.1 < b.1)

theorem Ord.mono {I J : Set ℚ} {l : Rule} (h : Ord I l) (hs : I ⊆ J) : Ord J l :=
  ⟨fun q hq => ⟨hs (h.1 q hq).1, (h.1 q hq).2⟩, h.2⟩

theorem Ord.append {I J K : Set ℚ} {a b : Rule} (h1 : Ord I a) (h2 : Ord J b) (hlt : ∀ x ∈ I, ∀ y ∈ J, x < y)
    (hI : I ⊆ K) (hJ : J ⊆ K) : Ord K (a ++ b) := by
  refine ⟨fun q hq => ?_, ?_⟩
  · rcases List.mem_append.mp hq with h | h
    · exact ⟨hI (h1.1 q h).1, (h1.1 q h).2⟩
    · exact ⟨hJ (h2.1 q h).1, (h2.1 q h).2⟩
  · exact List.pairwise_append.mpr ⟨h1.2, h2.2, fun x hx y hy => hlt _ (h1.1 x hx).1 _ (h2.1 y hy).1⟩

theorem Ord.shift {I J : Set ℚ} {l : Rule} (h : Ord I l) (d : ℚ) (hs : ∀ x ∈ I, x + d ∈ J) : Ord J (Rules.shift d l) := by
  refine ⟨fun q hq => ?_, ?_⟩
  · obtain ⟨p, hp, rfl⟩ := List.mem_map.mp hq
    exact ⟨hs _ (h.1 p hp).1, (h.1 p hp).2⟩
  · exact List.pairwise_map.mpr (h.2.imp (fun hab => by simpa using hab))

theorem Ord.reps_Ico {l : Rule} {R : ℕ} (h : Ord (Ico 0 (R : ℚ)) l) (j : ℕ) : Ord (Ico 0 ((R * j : ℕ) : ℚ)) (reps l R j) := by
  induction j with
  | zero => simp [reps, Ord]
  | succ j ih =>
    have hR : (0 : ℚ) ≤ R := Nat.cast_nonneg R
    have h2 : ((R * (j + 1) : ℕ) : ℚ) = ((R * j : ℕ) : ℚ) + R := by push_cast; ring
    refine ih.append (J := Ico ((R * j : ℕ) : ℚ) ((R * (j + 1) : ℕ) : ℚ)) (h.shift _ ?_) ?_ ?_ ?_
    · rintro x ⟨h0, h1⟩; rw [h2]; exact ⟨by linarith, by linarith⟩
    · rintro x ⟨_, h1⟩ y ⟨h3, _⟩; linarith
    · exact Ico_subset_Ico_right (by rw [h2]; linarith)
    · exact Ico_subset_Ico_left (Nat.cast_nonneg _)

theorem Ord.reps_Ioc {l : Rule} {R : ℕ} (h : Ord (Ioc 0 (R : ℚ)) l) (j : ℕ) : Ord (Ioc 0 ((R * j : ℕ) : ℚ)) (reps l R j) := by
  induction j with
  | zero => simp [reps, Ord]
  | succ j ih =>
    have hR : (0 : ℚ) ≤ R := Nat.cast_nonneg R
    have h2 : ((R * (j + 1) : ℕ) : ℚ) = ((R * j : ℕ) : ℚ) + R := by push_cast; ring
    refine ih.append (J := Ioc ((R * j : ℕ) : ℚ) ((R * (j + 1) : ℕ) : ℚ)) (h.shift _ ?_) ?_ ?_ ?_
    · rintro x ⟨h0, h1⟩; rw [h2]; exact ⟨by linarith, by linarith⟩
    · rintro x ⟨_, h1⟩ y ⟨h3, _⟩; linarith
    · exact Ioc_subset_Ioc_right (by rw [h2]; linarith)
    · exact Ioc_subset_Ioc_left (Nat.cast_nonneg _)

/-! ## Integer versions -/

def dbl (l : List (Int × Int)) : List (Int × Int) := l.map fun q => (2 * q.1, 2 * q.2)
def shiftI (d : Int) (l : List (Int × Int)) : List (Int × Int) := l.map fun q => (q.1 + d, q.2)
def mirrorI (d : Int) (l : List (Int × Int)) : List (Int × Int) := l.reverse.map fun q => (d - q.1, q.2)
def repsI (S : Nat) (x : List (Int × Int)) (right : Nat) : Nat → List (Int × Int)
  | 0 => []
  | j + 1 => repsI S x right j ++ shiftI ((right * j * S : Nat) : Int) x
/-- the middle part, at twice the scale `S` of the tables -/
def midI (S : Nat) (I Cn : List (Int × Int)) (L right e0 a : Nat) : List (Int × Int) :=
  shiftI ((L * (2 * S) : Nat) : Int) ((repsI (2 * S) (dbl I) right a).take a) ++ shiftI ((e0 * S : Nat) : Int) (dbl Cn)

theorem ofTable_dbl (S : Nat) (l : List (Int × Int)) : ofTable (2 * S) (dbl l) = ofTable S l := by
  simp only [ofTable, dbl, List.map_map, Function.comp_def]
  congr 1; funext q
  push_cast
  rw [mul_div_mul_left _ _ (by norm_num), mul_div_mul_left _ _ (by norm_num)]

theorem ofTable_shiftI {S : Nat} (hS : 0 < S) (d : Nat) (l : List (Int × Int)) :
    ofTable S (shiftI ((d * S : Nat) : Int) l) = shift d (ofTable S l) := by
  have : (S : ℚ) ≠ 0 := by exact_mod_cast hS.ne'
  simp only [ofTable, shiftI, shift, List.map_map, Function.comp_def]
  congr 1; funext q
  push_cast
  congr 1; field_simp

theorem ofTable_shiftI_half {S : Nat} (hS : 0 < S) (d : Nat) (l : List (Int × Int)) :
    ofTable (2 * S) (shiftI ((d * S : Nat) : Int) l) = shift ((d : ℚ) / 2) (ofTable (2 * S) l) := by
  have : (S : ℚ) ≠ 0 := by exact_mod_cast hS.ne'
  simp only [ofTable, shiftI, shift, List.map_map, Function.comp_def]
  congr 1; funext q
  push_cast
  congr 1; field_simp

theorem ofTable_mirrorI {S : Nat} (hS : 0 < S) (d : Nat) (l : List (Int × Int)) :
    ofTable S (mirrorI ((d * S : Nat) : Int) l) = mirror d (ofTable S l) := by
  have : (S : ℚ) ≠ 0 := by exact_mod_cast hS.ne'
  simp only [ofTable, mirrorI, mirror, ← List.map_reverse, List.map_map, Function.comp_def]
  congr 1; funext q
  push_cast
  congr 1; field_simp

theorem ofTable_append (S : Nat) (a b : List (Int × Int)) : ofTable S (a ++ b) = ofTable S a ++ ofTable S b := by
  simp [ofTable]

theorem ofTable_take (S : Nat) (a : List (Int × Int)) (n : Nat) : ofTable S (a.take n) = (ofTable S a).take n := by
  simp [ofTable]

theorem ofTable_repsI {S : Nat} (hS : 0 < S) (x : List (Int × Int)) (right j : Nat) :
    ofTable S (repsI S x right j) = reps (ofTable S x) right j := by
  induction j with
  | zero => rfl
  | succ j ih => rw [repsI, ofTable_append, ih, ofTable_shiftI hS, reps]

theorem ofTable_midI {S : Nat} (hS : 0 < S) (I Cn : List (Int × Int)) (L right e0 a : Nat) :
    ofTable (2 * S) (midI S I Cn L right e0 a) = midPart (ofTable S I) (ofTable S Cn) L right e0 a := by
  rw [midI, ofTable_append, ofTable_shiftI (by omega), ofTable_take, ofTable_repsI (by omega), ofTable_dbl,
    ofTable_shiftI_half hS, ofTable_dbl, midPart]

/-- The order of the points. -/
def ordI (p : Int → Bool) : List (Int × Int) → Bool
  | [] => true
  | [a] => p a.1 && decide (0 < a.2)
  | a :: b :: t => p a.1 && decide (0 < a.2) && decide (a.1 < b.1) && ordI p (b :: t)

theorem ordI_sound (p : Int → Bool) : ∀ l, ordI p l = true →
    (∀ q ∈ l, p q.1 = true ∧ 0 < q.2) ∧ l.Pairwise (fun a b => a.1 < b.1)
  | [], _ => by simp
  | [a], h => by
    simp only [ordI, Bool.and_eq_true, decide_eq_true_eq] at h
    simpa using h
  | a :: b :: t, h => by
    simp only [ordI, Bool.and_eq_true, decide_eq_true_eq] at h
    obtain ⟨⟨⟨h1, h2⟩, h3⟩, h4⟩ := h
    obtain ⟨ih1, ih2⟩ := ordI_sound p (b :: t) h4
    refine ⟨?_, ?_⟩
    · intro q hq
      rcases List.mem_cons.mp hq with rfl | hq
      · exact ⟨h1, h2⟩
      · exact ih1 q hq
    · refine List.pairwise_cons.mpr ⟨fun x hx => ?_, ih2⟩
      rcases List.mem_cons.mp hx with rfl | hx
      · exact h3
      · exact h3.trans ((List.pairwise_cons.mp ih2).1 x hx)

theorem ordI_ord {S : Nat} (hS : 0 < S) {p : Int → Bool} {I : Set ℚ} {l : List (Int × Int)} (h : ordI p l = true)
    (hI : ∀ x : Int, p x = true → (x : ℚ) / S ∈ I) : Ord I (ofTable S l) := by
  have hSq : (0 : ℚ) < S := by exact_mod_cast hS
  obtain ⟨h1, h2⟩ := ordI_sound p l h
  refine ⟨fun q hq => ?_, ?_⟩
  · obtain ⟨x, hx, rfl⟩ := List.mem_map.mp hq
    refine ⟨hI _ (h1 x hx).1, ?_⟩
    have : (0 : ℚ) < x.2 := by exact_mod_cast (h1 x hx).2
    positivity
  · refine List.pairwise_map.mpr (h2.imp fun {a b} hab => ?_)
    have : (a.1 : ℚ) < b.1 := by exact_mod_cast hab
    simpa using (div_lt_div_iff_of_pos_right hSq).mpr this

/-- What is stored for a class: for the boundary part, the internal rule, the middle part, the mirrored internal rule
and the mirrored boundary part the number of points of every span with the term at its right end. -/
structure Cert where
  spA : List (Nat × List Int)
  spP : List (Nat × List Int)
  spC : List (Nat × List Int)
  spP' : List (Nat × List Int)
  spA' : List (Nat × List Int)
  lA : List Int
  lC : List Int

/-- The check of a class; `L` and `R` are the numbers of spans of the boundary part and of the internal rule. -/
def classOK (Lg : Lagrange) (S : Nat) (num den : Int) (n : Nat) (b0 b1 b2 : List (Int × Int)) (L R e0 m0 a : Nat)
    (c : Cert) : Bool :=
  let A := dbl b0
  let P := dbl b1
  let mid := midI S b1 b2 L R e0 a
  let C := mid.take (m0 - (m0 + 1) / 2 - b0.length) ++ mirrorI ((e0 * (2 * S) : Nat) : Int) mid
  let P' := mirrorI ((R * (2 * S) : Nat) : Int) P
  let A' := mirrorI ((e0 * (2 * S) : Nat) : Int) A
  decide (0 < L) && decide (c.spA.length = L) && decide (c.spP.length = R) && decide (2 * L + c.spC.length = e0) && decide (c.spP'.length = R)
    && decide (c.spA'.length = L)
    && checkSeg Lg (2 * S) num den n c.spA 0 A [] c.lA
    && checkSeg Lg (2 * S) num den n c.spP 0 P c.lA c.lA
    && checkSeg Lg (2 * S) num den n c.spC L C c.lA c.lC
    && checkSeg Lg (2 * S) num den n c.spP' 0 P' c.lC c.lC
    && checkSeg Lg (2 * S) num den n c.spA' (e0 - L) A' c.lC []
    && ordI (fun x => decide (0 < x) && decide (x < ((L * (2 * S) : Nat) : Int))) A
    && ordI (fun x => decide (0 ≤ x) && decide (x < ((R * (2 * S) : Nat) : Int))) P
    && ordI (fun x => decide (((L * (2 * S) : Nat) : Int) ≤ x) && decide (x ≤ (((e0 - L) * (2 * S) : Nat) : Int))) C
    && ordI (fun x => decide (0 < x) && decide (x ≤ ((R * (2 * S) : Nat) : Int))) P'
    && ordI (fun x => decide ((((e0 - L) * (2 * S) : Nat) : Int) < x) && decide (x < ((e0 * (2 * S) : Nat) : Int))) A'

theorem ord_of_check {S : Nat} (hS : 0 < S) {l : List (Int × Int)} {a b : Nat} {pa pb : Int → Bool}
    {I : Set ℚ} (h : ordI (fun x => pa x && pb x) l = true)
    (hI : ∀ x : Int, pa x = true → pb x = true → (x : ℚ) / S ∈ I) : Ord I (ofTable S l) :=
  ordI_ord hS h (fun x hx => by simp only [Bool.and_eq_true] at hx; exact hI x hx.1 hx.2)

theorem div_lt_nat {S : Nat} (hS : 0 < S) (x : Int) (d : Nat) : (x : ℚ) / S < d ↔ x < ((d * S : Nat) : Int) := by
  have hSq : (0 : ℚ) < S := by exact_mod_cast hS
  rw [div_lt_iff₀ hSq]; exact_mod_cast Iff.rfl

theorem div_le_nat {S : Nat} (hS : 0 < S) (x : Int) (d : Nat) : (x : ℚ) / S ≤ d ↔ x ≤ ((d * S : Nat) : Int) := by
  have hSq : (0 : ℚ) < S := by exact_mod_cast hS
  rw [div_le_iff₀ hSq]; exact_mod_cast Iff.rfl

theorem nat_lt_div {S : Nat} (hS : 0 < S) (x : Int) (d : Nat) : (d : ℚ) < (x : ℚ) / S ↔ ((d * S : Nat) : Int) < x := by
  have hSq : (0 : ℚ) < S := by exact_mod_cast hS
  rw [lt_div_iff₀ hSq]; exact_mod_cast Iff.rfl

theorem nat_le_div {S : Nat} (hS : 0 < S) (x : Int) (d : Nat) : (d : ℚ) ≤ (x : ℚ) / S ↔ ((d * S : Nat) : Int) ≤ x := by
  have hSq : (0 : ℚ) < S := by exact_mod_cast hS
  rw [le_div_iff₀ hSq]; exact_mod_cast Iff.rfl

/-- The rule of a class with `j` repetitions on each side. -/
def classRule (S : Nat) (b0 b1 b2 : List (Int × Int)) (L R e0 m0 a j : Nat) : Rule :=
  ofTable S b0 ++ shift L (reps (ofTable S b1) R j) ++
    shift ((R * j : ℕ) : ℚ) ((midPart (ofTable S b1) (ofTable S b2) L R e0 a).take (m0 - (m0 + 1) / 2 - b0.length) ++
      mirror e0 (midPart (ofTable S b1) (ofTable S b2) L R e0 a)) ++
    shift ((e0 : ℚ) - L + ((R * j : ℕ) : ℚ)) (reps (mirror R (ofTable S b1)) R j) ++
    shift ((2 * R * j : ℕ) : ℚ) (mirror e0 (ofTable S b0))

theorem classOK_sound (Lg : Lagrange) (hLg : Lg.ok = true) {S : Nat} (hS : 0 < S) {num den : Int} (hd : 0 < den) {n : Nat}
    {b0 b1 b2 : List (Int × Int)} {L R e0 m0 a : Nat} {c : Cert}
    (h : classOK Lg S num den n b0 b1 b2 L R e0 m0 a c = true) (j : Nat) :
    SegOK Lg.p n (2 * S) ((num : ℝ) / den) 0 (e0 + 2 * R * j) (classRule S b0 b1 b2 L R e0 m0 a j) [] [] ∧
    Ord (Ioo 0 ((e0 + 2 * R * j : Nat) : ℚ)) (classRule S b0 b1 b2 L R e0 m0 a j) := by
  simp only [classOK, Bool.and_eq_true, decide_eq_true_eq] at h
  obtain ⟨⟨⟨⟨⟨⟨⟨⟨⟨⟨⟨⟨⟨⟨⟨n0, n1⟩, n2⟩, n3⟩, n4⟩, n5⟩, k1⟩, k2⟩, k3⟩, k4⟩, k5⟩, o1⟩, o2⟩, o3⟩, o4⟩, o5⟩ := h
  have hS2 : 0 < 2 * S := by omega
  have s1 := checkSeg_sound Lg hLg (2 * S) hS2 num den hd n _ _ _ _ _ k1
  have s2 := (checkSeg_sound Lg hLg (2 * S) hS2 num den hd n _ _ _ _ _ k2)
  have s3 := checkSeg_sound Lg hLg (2 * S) hS2 num den hd n _ _ _ _ _ k3
  have s4 := checkSeg_sound Lg hLg (2 * S) hS2 num den hd n _ _ _ _ _ k4
  have s5 := checkSeg_sound Lg hLg (2 * S) hS2 num den hd n _ _ _ _ _ k5
  have q1 := ord_of_check (a := 0) (b := 0) hS2 (I := Ioo 0 (L : ℚ)) o1 (fun x h1 h2 => by
    simp only [decide_eq_true_eq] at h1 h2
    refine ⟨?_, (div_lt_nat hS2 x L).mpr h2⟩
    have := (nat_lt_div hS2 x 0).mpr (by simpa using h1); simpa using this)
  have q2 := ord_of_check (a := 0) (b := 0) hS2 (I := Ico 0 (R : ℚ)) o2 (fun x h1 h2 => by
    simp only [decide_eq_true_eq] at h1 h2
    refine ⟨?_, (div_lt_nat hS2 x R).mpr h2⟩
    have := (nat_le_div hS2 x 0).mpr (by simpa using h1); simpa using this)
  have q3 := ord_of_check (a := 0) (b := 0) hS2 (I := Icc (L : ℚ) ((e0 - L : Nat) : ℚ)) o3 (fun x h1 h2 => by
    simp only [decide_eq_true_eq] at h1 h2
    exact ⟨(nat_le_div hS2 x L).mpr h1, (div_le_nat hS2 x _).mpr h2⟩)
  have q4 := ord_of_check (a := 0) (b := 0) hS2 (I := Ioc 0 (R : ℚ)) o4 (fun x h1 h2 => by
    simp only [decide_eq_true_eq] at h1 h2
    refine ⟨?_, (div_le_nat hS2 x R).mpr h2⟩
    have := (nat_lt_div hS2 x 0).mpr (by simpa using h1); simpa using this)
  have q5 := ord_of_check (a := 0) (b := 0) hS2 (I := Ioo ((e0 - L : Nat) : ℚ) (e0 : ℚ)) o5 (fun x h1 h2 => by
    simp only [decide_eq_true_eq] at h1 h2
    exact ⟨(nat_lt_div hS2 x _).mpr h1, (div_lt_nat hS2 x e0).mpr h2⟩)
  rw [ofTable_dbl] at s1 s2 q1 q2
  rw [ofTable_append, ofTable_take, ofTable_mirrorI hS2, ofTable_midI hS] at s3 q3
  rw [ofTable_mirrorI hS2, ofTable_dbl] at s4 s5 q4 q5
  rw [n1] at s1
  rw [n2] at s2
  rw [n4] at s4
  rw [n5] at s5
  simp only [Nat.zero_add] at s1 s2 s4
  have heL : e0 - L + L = e0 := by omega
  have hLC : L + c.spC.length = e0 - L := by omega
  rw [hLC] at s3
  rw [heL] at s5
  have hc1 : ((e0 - L : Nat) : ℚ) = (e0 : ℚ) - L := by rw [Nat.cast_sub (by omega)]
  constructor
  · have t2 := (s2.reps j).shift L
    have t3 := s3.shift (R * j)
    have t4 := (s4.reps j).shift (e0 - L + R * j)
    have t5 := s5.shift (2 * R * j)
    have u2 := s1.append (by rw [Nat.zero_add] at t2; exact t2)
    have u3 := u2.append (by rw [Nat.add_comm L (R * j)] at t3; exact t3)
    have u4 := u3.append (by rw [Nat.zero_add] at t4; exact t4)
    have u5 := u4.append (by
      have : e0 - L + 2 * R * j = R * j + (e0 - L + R * j) := by ring
      rw [this] at t5; exact t5)
    have hc2 : ((e0 - L + R * j : Nat) : ℚ) = (e0 : ℚ) - L + ((R * j : ℕ) : ℚ) := by rw [← hc1]; push_cast; ring
    rw [hc2] at u5
    exact u5
  · have hRj : (0 : ℚ) ≤ ((R * j : ℕ) : ℚ) := Nat.cast_nonneg _
    have hL0 : (0 : ℚ) < L := by exact_mod_cast n0
    have hLe : (L : ℚ) + L ≤ e0 := by exact_mod_cast (by omega : L + L ≤ e0)
    have he : ((e0 + 2 * R * j : Nat) : ℚ) = (e0 : ℚ) + ((R * j : ℕ) : ℚ) + ((R * j : ℕ) : ℚ) := by push_cast; ring
    have h2Rj : ((2 * R * j : ℕ) : ℚ) = ((R * j : ℕ) : ℚ) + ((R * j : ℕ) : ℚ) := by push_cast; ring
    rw [he, classRule, h2Rj]
    rw [hc1] at q3 q5
    have r2 := q2.reps_Ico j
    have r4 := q4.reps_Ioc j
    generalize ((R * j : ℕ) : ℚ) = ρ at *
    have t2 : Ord (Ico (L : ℚ) (L + ρ)) (shift (L : ℚ) (reps (ofTable S b1) R j)) :=
      r2.shift _ (by rintro x ⟨h1, h2⟩; exact ⟨by linarith, by linarith⟩)
    have t3 := q3.shift (J := Icc ((L : ℚ) + ρ) ((e0 : ℚ) - L + ρ)) ρ
      (by rintro x ⟨h1, h2⟩; exact ⟨by linarith, by linarith⟩)
    have t4 := r4.shift (J := Ioc ((e0 : ℚ) - L + ρ) ((e0 : ℚ) - L + ρ + ρ)) ((e0 : ℚ) - L + ρ)
      (by rintro x ⟨h1, h2⟩; exact ⟨by linarith, by linarith⟩)
    have t5 := q5.shift (J := Ioo ((e0 : ℚ) - L + ρ + ρ) ((e0 : ℚ) + ρ + ρ)) (ρ + ρ)
      (by rintro x ⟨h1, h2⟩; exact ⟨by linarith, by linarith⟩)
    have u2 := q1.append (K := Ioo 0 ((L : ℚ) + ρ)) t2 (by rintro x ⟨_, h1⟩ y ⟨h2, _⟩; linarith)
      (by rintro x ⟨h1, h2⟩; exact ⟨by linarith, by linarith⟩)
      (by rintro x ⟨h1, h2⟩; exact ⟨by linarith, by linarith⟩)
    have u3 := u2.append (K := Ioc 0 ((e0 : ℚ) - L + ρ)) t3 (by rintro x ⟨_, h1⟩ y ⟨h2, _⟩; linarith)
      (by rintro x ⟨h1, h2⟩; exact ⟨by linarith, by linarith⟩)
      (by rintro x ⟨h1, h2⟩; exact ⟨by linarith, by linarith⟩)
    have u4 := u3.append (K := Ioc 0 ((e0 : ℚ) - L + ρ + ρ)) t4 (by rintro x ⟨_, h1⟩ y ⟨h2, _⟩; linarith)
      (by rintro x ⟨h1, h2⟩; exact ⟨by linarith, by linarith⟩)
      (by rintro x ⟨h1, h2⟩; exact ⟨by linarith, by linarith⟩)
    exact u4.append t5 (by rintro x ⟨_, h1⟩ y ⟨h2, _⟩; linarith)
      (by rintro x ⟨h1, h2⟩; exact ⟨by linarith, by linarith⟩)
      (by rintro x ⟨h1, h2⟩; exact ⟨by linarith, by linarith⟩)

end QuESo.Rules
