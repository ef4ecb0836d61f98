import Verif.Proofs.SplineSeg

/-! # The construction of a rule from its base rule -/
namespace QuESo.Rules

/-- mirror image of a rule on `[0, e]` -/
def mirror (e : ℚ) (l : Rule) : Rule := l.reverse.map fun q => (e - q.1, q.2)

@[simp] theorem length_shift (d : ℚ) (l : Rule) : (shift d l).length = l.length := by simp [shift]
@[simp] theorem length_mirror (d : ℚ) (l : Rule) : (mirror d l).length = l.length := by simp [mirror]

theorem shift_append (d : ℚ) (a b : Rule) : shift d (a ++ b) = shift d a ++ shift d b := by simp [shift]
theorem shift_shift (c d : ℚ) (a : Rule) : shift c (shift d a) = shift (d + c) a := by
  simp [shift, Function.comp_def, add_assoc]
theorem shift_zero (a : Rule) : shift 0 a = a := by simp [shift]
theorem shift_take (d : ℚ) (a : Rule) (n : Nat) : shift d (a.take n) = (shift d a).take n := by simp [shift]
theorem mirror_append (e : ℚ) (a b : Rule) : mirror e (a ++ b) = mirror e b ++ mirror e a := by simp [mirror]
theorem mirror_shift (e d : ℚ) (a : Rule) : mirror e (shift d a) = mirror (e - d) a := by
  simp only [mirror, shift, ← List.map_reverse, List.map_map, Function.comp_def]
  congr 1; funext q; simp; ring
theorem mirror_add (e c : ℚ) (a : Rule) : mirror (e + c) a = shift c (mirror e a) := by
  simp only [mirror, shift, List.map_map, Function.comp_def]
  congr 1; funext q; simp; ring

theorem length_reps (x : Rule) (right j : ℕ) : (reps x right j).length = x.length * j := by
  induction j with
  | zero => simp [reps]
  | succ j ih => simp [reps, ih]; ring

theorem reps_add (x : Rule) (right i j : ℕ) :
    reps x right (i + j) = reps x right i ++ shift ((right * i : ℕ) : ℚ) (reps x right j) := by
  induction j with
  | zero => simp [reps, shift]
  | succ j ih =>
    rw [← Nat.add_assoc, reps, ih, reps, shift_append, shift_shift, List.append_assoc]
    congr 3
    push_cast; ring

theorem mirror_reps (x : Rule) (right j : ℕ) :
    mirror ((right * j : ℕ) : ℚ) (reps x right j) = reps (mirror right x) right j := by
  induction j with
  | zero => simp [reps, mirror]
  | succ j ih =>
    rw [reps, mirror_append, mirror_shift, Nat.add_comm j 1, reps_add]
    have h1 : ((right * (1 + j) : ℕ) : ℚ) - ((right * j : ℕ) : ℚ) = right := by push_cast; ring
    have h2 : ((right * (1 + j) : ℕ) : ℚ) = ((right * j : ℕ) : ℚ) + ((right * 1 : ℕ) : ℚ) := by push_cast; ring
    rw [h1, h2, mirror_add, ih]
    congr 1
    simp [reps, shift_zero]

theorem reps_take_stable (x : Rule) (right a i j : ℕ) (hi : a ≤ x.length * i) (hj : a ≤ x.length * j) :
    (reps x right i).take a = (reps x right j).take a := by
  have key : ∀ i d, a ≤ x.length * i → (reps x right (i + d)).take a = (reps x right i).take a := by
    intro i d h
    rw [reps_add, List.take_append_of_le_length (by rw [length_reps]; exact h)]
  rcases Nat.le_total i j with h | h
  · obtain ⟨d, rfl⟩ := Nat.exists_eq_add_of_le h
    exact (key i d hi).symm
  · obtain ⟨d, rfl⟩ := Nat.exists_eq_add_of_le h
    exact key j d hj

theorem internalLoop_spec (B0 internal : Rule) (right L z m : Nat) (hpos : 0 < internal.length)
    (hz : z + internal.length ≤ m + 1) :
    ∀ (fuel j : Nat) (pts : Rule), pts.length = m → B0.length + internal.length * j ≤ m →
      pts.take (B0.length + internal.length * j) = B0 ++ shift L (reps internal right j) →
      z ≤ B0.length + internal.length * j + fuel →
      ∃ pts' J, internalLoop internal right z fuel (B0.length + internal.length * j) (L + right * j) pts = .ok pts' ∧
        pts'.length = m ∧ z ≤ B0.length + internal.length * J ∧ 
        pts'.take (B0.length + internal.length * J) = B0 ++ shift L (reps internal right J)
  | fuel, j, pts, hlen, hle, htake, hfuel => by
    unfold internalLoop
    by_cases hc : B0.length + internal.length * j < z
    · rw [if_pos hc]
      match fuel with
      | 0 => omega
      | fuel + 1 =>
        have h1 : B0.length + internal.length * j + (shift (L + right * j : Nat) internal).length ≤ pts.length := by
          rw [length_shift]; omega
        simp only [copyTo, if_pos h1]
        have hj1 : internal.length * (j + 1) = internal.length * j + internal.length := by ring
        have hj2 : right * (j + 1) = right * j + right := by ring
        have hl0 : (pts.take (B0.length + internal.length * j)).length = B0.length + internal.length * j := by
          rw [List.length_take]; omega
        have := internalLoop_spec B0 internal right L z m hpos hz fuel (j + 1)
          (pts.take (B0.length + internal.length * j) ++ shift (L + right * j : Nat) internal ++
            pts.drop (B0.length + internal.length * j + (shift (L + right * j : Nat) internal).length))
          (by rw [length_shift] at *; simp only [List.length_append, length_shift, List.length_drop]; omega)
          (by rw [length_shift] at h1; omega)
          (by
            rw [List.take_append_of_le_length (by rw [List.length_append, hl0, length_shift]; omega),
              List.take_of_length_le (by rw [List.length_append, hl0, length_shift]; omega), htake, reps, shift_append,
              shift_shift, List.append_assoc]
            congr 3
            push_cast; ring)
          (by omega)
        rw [hj1, hj2, ← Nat.add_assoc, ← Nat.add_assoc] at this
        exact this
    · rw [if_neg hc]
      exact ⟨pts, j, rfl, hlen, by omega, htake⟩

theorem reverseCopy_spec : ∀ (last d : Nat) (pts : Rule), d + last = pts.length → last ≤ d + 1 →
    reverseCopy last d pts = .ok (pts.take d ++ (pts.take last).reverse)
  | 0, d, pts, h, _ => by
    simp [reverseCopy, List.take_of_length_le (show pts.length ≤ d by omega)]
  | last + 1, d, pts, h, hl => by
    have h1 : last < pts.length := by omega
    have h2 : d < pts.length := by omega
    rw [reverseCopy, List.getElem?_eq_getElem h1]
    simp only [if_pos h2]
    rw [reverseCopy_spec last (d + 1) _ (by rw [List.length_set]; omega) (by omega)]
    congr 1
    have e1 : (pts.set d pts[last]).take (d + 1) = pts.take d ++ [pts[last]] := by
      rw [List.take_add_one]
      congr 1
      · rw [List.take_set_of_le (le_refl d)]
      · rw [List.getElem?_set_self h2]; rfl
    have e2 : (pts.set d pts[last]).take last = pts.take last := List.take_set_of_le (by omega)
    rw [e1, e2, List.take_succ_eq_append_getElem h1, List.reverse_append]
    simp

/-- The half of the rule: boundary, internal rules, center. -/
def half (B0 I Cn : Rule) (L right : Nat) (e : ℚ) (q : Nat) : Rule :=
  (B0 ++ shift L (reps I right q)).take q ++ shift (e / 2) Cn

theorem build_spec (B0 I Cn : Rule) (e m : Nat) (b i : Pt) (hb : B0.getLast? = some b) (hi : I.getLast? = some i)
    (h1 : B0.length ≤ m) (hz : (m + 1) / 2 + I.length ≤ m + 1) (h3 : Cn.length ≤ (m + 1) / 2) :
    build B0 I Cn e m =
      .ok ((half B0 I Cn (ceilSpans b.1) (ceilSpans i.1) e ((m + 1) / 2 - Cn.length)).take (m - (m + 1) / 2) ++
        mirror e (half B0 I Cn (ceilSpans b.1) (ceilSpans i.1) e ((m + 1) / 2 - Cn.length))) := by
  have hpos : 0 < I.length := by
    cases I with
    | nil => simp at hi
    | cons a t => simp
  set z := (m + 1) / 2 with hzd
  set L := ceilSpans b.1
  set R := ceilSpans i.1
  unfold build
  simp only [hb, hi]
  have c1 : copyTo B0 0 (List.replicate m (0, 0)) = .ok (B0 ++ List.replicate (m - B0.length) (0, 0)) := by
    simp [copyTo, h1]
  rw [c1]
  simp only []
  obtain ⟨pts, J, e1, e2, e3, e4⟩ := internalLoop_spec B0 I R L z m hpos hz m 0
    (B0 ++ List.replicate (m - B0.length) (0, 0)) (by simp; omega) (by simpa using h1) (by simp [reps, shift]) (by omega)
  simp only [Nat.mul_zero, Nat.add_zero] at e1
  rw [← hzd, e1]
  simp only [if_neg (show ¬ z < Cn.length by omega)]
  have c2 : z - Cn.length + (shift ((e : ℚ) / 2) Cn).length ≤ pts.length := by rw [length_shift]; omega
  simp only [copyTo, if_pos c2, if_neg (show ¬ m < z by omega)]
  set q := z - Cn.length with hq
  have hqz : q + (shift ((e : ℚ) / 2) Cn).length = z := by rw [length_shift]; omega
  rw [hqz]
  have htq : pts.take q = (B0 ++ shift L (reps I R q)).take q := by
    have h5 : pts.take q = (pts.take (B0.length + I.length * J)).take q := by
      rw [List.take_take]; congr 1; omega
    rw [h5, e4]
    by_cases hqb : q ≤ B0.length
    · rw [List.take_append_of_le_length hqb, List.take_append_of_le_length hqb]
    · obtain ⟨a, ha⟩ := Nat.exists_eq_add_of_le (show B0.length ≤ q by omega)
      rw [ha, List.take_length_add_append, List.take_length_add_append, ← shift_take, ← shift_take]
      congr 2
      refine reps_take_stable I R a J (B0.length + a) (by omega) ?_
      calc a ≤ 1 * (B0.length + a) := by omega
        _ ≤ I.length * (B0.length + a) := Nat.mul_le_mul_right _ hpos
  have hl2 : (pts.take q ++ shift ((e : ℚ) / 2) Cn).length = z := by
    rw [List.length_append, List.length_take, ← hqz]; omega
  set pts2 := pts.take q ++ shift ((e : ℚ) / 2) Cn ++ pts.drop z with hp2
  have hlen2 : pts2.length = m := by rw [hp2, List.length_append, hl2, List.length_drop]; omega
  rw [reverseCopy_spec z (m - z) pts2 (by omega) (by omega)]
  simp only []
  have ht2 : pts2.take z = half B0 I Cn L R e q := by
    rw [hp2, List.take_append_of_le_length (by omega), List.take_of_length_le (by omega), half, htq]
  have ht3 : pts2.take (m - z) = (half B0 I Cn L R e q).take (m - z) := by
    rw [← ht2, List.take_take]; congr 1; omega
  have hl3 : (pts2.take (m - z)).length = m - z := by rw [List.length_take]; omega
  rw [List.take_append_of_le_length (by omega), List.take_of_length_le (by omega)]
  rw [List.drop_append_of_le_length (by omega), List.drop_of_length_le (by omega), List.nil_append, ht2, ht3]
  simp [mirror]

/-- The middle part of the smallest rule of a class. -/
def midPart (I Cn : Rule) (L right : Nat) (e0 : ℚ) (a : Nat) : Rule :=
  shift L ((reps I right a).take a) ++ shift (e0 / 2) Cn

theorem half_add (B0 I Cn : Rule) (L right e0 a j : Nat) (hpos : 0 < I.length) :
    half B0 I Cn L right ((e0 + 2 * right * j : Nat) : ℚ) (B0.length + a + I.length * j) =
      B0 ++ shift L (reps I right j) ++ shift ((right * j : ℕ) : ℚ) (midPart I Cn L right e0 a) := by
  unfold half midPart
  rw [Nat.add_assoc, List.take_length_add_append, ← shift_take]
  have hs : (reps I right (B0.length + (a + I.length * j))).take (a + I.length * j) =
      reps I right j ++ shift ((right * j : ℕ) : ℚ) ((reps I right a).take a) := by
    have ha : a ≤ I.length * a := Nat.le_mul_of_pos_left a hpos
    rw [reps_take_stable I right (a + I.length * j) _ (j + a) ?_ ?_, reps_add]
    · rw [show a + I.length * j = (reps I right j).length + a by rw [length_reps]; ring, List.take_length_add_append,
        shift_take]
    · calc a + I.length * j ≤ 1 * (B0.length + (a + I.length * j)) := by omega
        _ ≤ _ := Nat.mul_le_mul_right _ hpos
    · rw [Nat.mul_add]; omega
  rw [hs]
  simp only [shift_append, shift_shift, List.append_assoc]
  rw [add_comm (L : ℚ), show (((e0 + 2 * right * j : ℕ) : ℚ)) / 2 = (e0 : ℚ) / 2 + ((right * j : ℕ) : ℚ) by
    push_cast; ring]

/-- The rules of a class: for every repetition `j` of the internal rule. -/
theorem build_class (B0 I Cn : Rule) (e0 m0 a j : Nat) (b i : Pt) (hb : B0.getLast? = some b)
    (hi : I.getLast? = some i) (hz : (m0 + 1) / 2 + I.length ≤ m0 + 1)
    (hq : (m0 + 1) / 2 = B0.length + a + Cn.length) (hm : B0.length ≤ m0 - (m0 + 1) / 2) :
    build B0 I Cn (e0 + 2 * ceilSpans i.1 * j) (m0 + 2 * I.length * j) =
      .ok (B0 ++ shift (ceilSpans b.1) (reps I (ceilSpans i.1) j) ++
        shift ((ceilSpans i.1 * j : ℕ) : ℚ)
          ((midPart I Cn (ceilSpans b.1) (ceilSpans i.1) e0 a).take (m0 - (m0 + 1) / 2 - B0.length) ++
            mirror e0 (midPart I Cn (ceilSpans b.1) (ceilSpans i.1) e0 a)) ++
        shift ((e0 : ℚ) - ceilSpans b.1 + ((ceilSpans i.1 * j : ℕ) : ℚ)) (reps (mirror (ceilSpans i.1) I) (ceilSpans i.1) j) ++
        shift ((2 * ceilSpans i.1 * j : ℕ) : ℚ) (mirror e0 B0)) := by
  have hpos : 0 < I.length := by
    cases I with
    | nil => simp at hi
    | cons a t => simp
  have hmz : (m0 + 2 * I.length * j + 1) / 2 = (m0 + 1) / 2 + I.length * j := by
    rw [show m0 + 2 * I.length * j + 1 = (m0 + 1) + 2 * (I.length * j) by ring]; omega
  have hm2 : m0 + 2 * I.length * j = m0 + I.length * j + I.length * j := by ring
  rw [build_spec B0 I Cn _ _ b i hb hi (by omega) (by rw [hmz]; omega) (by rw [hmz]; omega), hmz]
  set L := ceilSpans b.1
  set R := ceilSpans i.1
  have hqe : (m0 + 1) / 2 + I.length * j - Cn.length = B0.length + a + I.length * j := by omega
  rw [hqe, half_add B0 I Cn L R e0 a j hpos]
  set mid := midPart I Cn L R e0 a
  congr 1
  have ht : (B0 ++ shift (L : ℚ) (reps I R j) ++ shift ((R * j : ℕ) : ℚ) mid).take
      (m0 + 2 * I.length * j - ((m0 + 1) / 2 + I.length * j)) =
      B0 ++ shift (L : ℚ) (reps I R j) ++ shift ((R * j : ℕ) : ℚ) (mid.take (m0 - (m0 + 1) / 2 - B0.length)) := by
    rw [show m0 + 2 * I.length * j - ((m0 + 1) / 2 + I.length * j) =
      (B0 ++ shift (L : ℚ) (reps I R j)).length + (m0 - (m0 + 1) / 2 - B0.length) by
        rw [List.length_append, length_shift, length_reps]; omega, List.take_length_add_append, shift_take]
  rw [ht]
  simp only [mirror_append, mirror_shift, shift_append, List.append_assoc]
  congr 4
  · rw [← mirror_add]; congr 1; push_cast; ring
  congr 1
  · rw [← mirror_reps, ← mirror_add]; congr 1; push_cast; ring
  · rw [← mirror_add]; congr 1; push_cast; ring

end QuESo.Rules
