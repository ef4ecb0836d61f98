import Verif.Proofs.RuleClass

/-! # From checked certificates to rules that integrate splines -/
namespace QuESo.Rules
open QuESo.Spec Set

/-- The rule has the optimal number of points, is proper, and integrates splines up to `10 ^ (-12)` of their size. -/
def GoodRule (p r e : ℕ) (rule : Rule) : Prop :=
  rule.length = (p + 1 + (e - 1) * (p - r) + 1) / 2 ∧ Proper rule ∧
    ∀ (f : ℝ → ℝ) (M : ℝ), IsSpline p r e f → (∀ x ∈ Icc (0 : ℝ) 1, |f x| ≤ M) →
      IntegratesUpTo (1 / 10 ^ 12 * M) rule f

theorem proper_unscale {e : ℕ} (he : 0 < e) {l : Rule} (h : Ord (Ioo 0 (e : ℚ)) l) : Proper (unscale e l) := by
  have heq : (0 : ℚ) < e := by exact_mod_cast he
  refine ⟨fun q hq => ?_, ?_⟩
  · obtain ⟨x, hx, rfl⟩ := List.mem_map.mp hq
    obtain ⟨⟨h1, h2⟩, h3⟩ := h.1 x hx
    exact ⟨div_pos h1 heq, (div_lt_one heq).mpr h2, div_pos h3 heq⟩
  · exact List.pairwise_map.mpr (h.2.imp fun {a b} hab => (div_lt_div_iff_of_pos_right heq).mpr hab)

theorem good_of_seg {p r S e : ℕ} (he : 0 < e) {pts : Rule}
    (hs : SegOK p (r + 1) S (((1 : Int) : ℝ) / ((10 ^ 12 : Int) : ℝ)) 0 e pts [] []) (ho : Ord (Ioo 0 (e : ℚ)) pts)
    (hl : pts.length = (p + 1 + (e - 1) * (p - r) + 1) / 2) : GoodRule p r e (unscale e pts) := by
  refine ⟨by simpa [unscale] using hl, proper_unscale he ho, fun f M hf hM => ?_⟩
  have := segOK_exact he hs hf hM
  norm_num at this ⊢
  exact this

theorem numDofs_eq {p r e : ℕ} (he : 1 ≤ e) (hr : r ≤ p) : numDofs p r e = p + 1 + (e - 1) * (p - r) := by
  obtain ⟨k, rfl⟩ := Nat.exists_eq_add_of_le he
  obtain ⟨d, rfl⟩ := Nat.exists_eq_add_of_le hr
  unfold numDofs
  have : (((r + d : ℕ) : Int) + 1) * 2 + (((1 + k : ℕ) : Int) - 1) * (((r + d : ℕ) : Int) - (r : Int)) - ((r + d : ℕ) : Int) - 1
      = ((r + d + 1 + k * d : ℕ) : Int) := by push_cast; ring
  rw [this, Int.toNat_natCast]
  congr 2
  · omega
  · omega

theorem basePoints_congr {degree e e' : ℕ} {method : Method} {p r : ℕ} (hd : spaceDimension degree method = .ok (p, r))
    (h2 : e % 2 = e' % 2) (hm : numPoints (numDofs p r e) % 2 = numPoints (numDofs p r e') % 2) :
    basePoints degree e method = basePoints degree e' method := by
  unfold basePoints baseEntry
  simp only [hd, h2, hm]

theorem scale_eq (e : ℕ) (l : Rule) :
    (l.map fun q => ((0 : ℚ) + (1 - 0) / (e : ℚ) * q.1, q.2 * ((1 - 0) / (e : ℚ)))) = unscale e l := by
  unfold unscale
  congr 1; funext q
  congr 1 <;> ring

/-- What is checked about the sizes of a class. -/
def classPre (degree : Nat) (method : Method) (p r : Nat) (b0 b1 b2 cn : List (Int × Int)) (L R e0 n0 m0 : Nat) : Bool :=
  decide (1 ≤ e0) && decide (r ≤ p) && decide (spaceDimension degree method = .ok (p, r)) &&
    decide (basePoints degree e0 method = .ok [b0, b1, b2]) &&
    decide (R * (p - r) = 2 * b1.length) &&
    decide (if n0 % 2 = 0 then m0 > 2 * b0.length else m0 > 2 * (b0.length + b2.length) - 1) &&
    decide (((ofTable ggqScale b0).getLast?.map fun q => ceilSpans q.1) = some L) &&
    decide (((ofTable ggqScale b1).getLast?.map fun q => ceilSpans q.1) = some R) &&
    decide ((m0 + 1) / 2 + b1.length ≤ m0 + 1) && decide (b0.length + cn.length ≤ (m0 + 1) / 2) &&
    decide (b0.length ≤ m0 - (m0 + 1) / 2)

/-- Everything that is checked for a class. -/
def classData (degree : Nat) (method : Method) (p r : Nat) (Lg : Lagrange) (b0 b1 b2 : List (Int × Int))
    (L R e0 : Nat) (c : Cert) : Bool :=
  let n0 := p + 1 + (e0 - 1) * (p - r)
  let m0 := (n0 + 1) / 2
  let cn := if n0 % 2 = 0 then [] else b2
  let a := (m0 + 1) / 2 - b0.length - cn.length
  classPre degree method p r b0 b1 b2 cn L R e0 n0 m0 && decide (Lg.p = p) &&
    classOK Lg ggqScale 1 (10 ^ 12) (r + 1) b0 b1 cn L R e0 m0 a c

/-- Everything that is checked for a single rule that is put together from its parts. -/
def directData (degree : Nat) (method : Method) (p r : Nat) (Lg : Lagrange) (b0 b1 b2 : List (Int × Int))
    (L R e0 : Nat) (sp : List (Nat × List Int)) : Bool :=
  let n0 := p + 1 + (e0 - 1) * (p - r)
  let m0 := (n0 + 1) / 2
  let cn := if n0 % 2 = 0 then [] else b2
  let a := (m0 + 1) / 2 - b0.length - cn.length
  let mid := midI ggqScale b1 cn L R e0 a
  let pts := dbl b0 ++ (mid.take (m0 - (m0 + 1) / 2 - b0.length) ++ mirrorI ((e0 * (2 * ggqScale) : Nat) : Int) mid) ++
    mirrorI ((e0 * (2 * ggqScale) : Nat) : Int) (dbl b0)
  classPre degree method p r b0 b1 b2 cn L R e0 n0 m0 && decide (Lg.p = p) && decide (sp.length = e0) &&
    checkSeg Lg (2 * ggqScale) 1 (10 ^ 12) (r + 1) sp 0 pts [] [] &&
    ordI (fun x => decide (0 < x) && decide (x < ((e0 * (2 * ggqScale) : Nat) : Int))) pts

theorem length_ofTable (S : Nat) (l : List (Int × Int)) : (ofTable S l).length = l.length := by simp [ofTable]

theorem length_midPart (I Cn : Rule) (L R : Nat) (e0 : ℚ) (a : Nat) (h : 0 < I.length) :
    (midPart I Cn L R e0 a).length = a + Cn.length := by
  rw [midPart, List.length_append, length_shift, length_shift, List.length_take, length_reps]
  have : a ≤ I.length * a := Nat.le_mul_of_pos_left a h
  omega

theorem class_rule {degree : Nat} {method : Method} {p r : Nat}
    {b0 b1 b2 cn : List (Int × Int)} {L R e0 n0 m0 a : Nat} (hn0 : n0 = p + 1 + (e0 - 1) * (p - r))
    (hm0 : m0 = (n0 + 1) / 2) (hcn : cn = if n0 % 2 = 0 then [] else b2) (ha : a = (m0 + 1) / 2 - b0.length - cn.length)
    (h : classPre degree method p r b0 b1 b2 cn L R e0 n0 m0 = true) (j : Nat) :
    getGGQ degree (e0 + 2 * R * j) method =
        .ok (unscale (e0 + 2 * R * j) (classRule ggqScale b0 b1 cn L R e0 m0 a j)) ∧
      (classRule ggqScale b0 b1 cn L R e0 m0 a j).length = (p + 1 + (e0 + 2 * R * j - 1) * (p - r) + 1) / 2 ∧ 1 ≤ e0 := by
  simp only [classPre, Bool.and_eq_true, decide_eq_true_eq] at h
  obtain ⟨⟨⟨⟨⟨⟨⟨⟨⟨⟨h1, h2⟩, h3⟩, h4⟩, h6⟩, h7⟩, h8⟩, h9⟩, h10⟩, h11⟩, h12⟩ := h
  set e := e0 + 2 * R * j with he
  have he1 : 1 ≤ e := by omega
  have hn : numDofs p r e = n0 + 4 * (b1.length * j) := by
    rw [numDofs_eq he1 h2, hn0, he]
    have : (e0 + 2 * R * j - 1) = (e0 - 1) + 2 * R * j := by omega
    rw [this, Nat.add_mul]
    have : 2 * R * j * (p - r) = 2 * (R * (p - r)) * j := by ring
    rw [this, h6]; ring
  have hm : numPoints (numDofs p r e) = m0 + 2 * b1.length * j := by
    rw [hn, numPoints, hm0, show 2 * b1.length * j = 2 * (b1.length * j) by ring]; omega
  have hbase : basePoints degree e method = .ok [b0, b1, b2] := by
    rw [basePoints_congr (e' := e0) h3, h4]
    · rw [he, show e0 + 2 * R * j = e0 + 2 * (R * j) by ring]; omega
    · rw [hm, numPoints, numDofs_eq h1 h2, ← hn0, ← hm0, show 2 * b1.length * j = 2 * (b1.length * j) by ring]; omega
  obtain ⟨b, hb, hbL⟩ := Option.map_eq_some_iff.mp h8
  obtain ⟨i, hi, hiR⟩ := Option.map_eq_some_iff.mp h9
  have hb1pos : 0 < b1.length := by
    rcases Nat.eq_zero_or_pos b1.length with h0 | h0
    · rw [List.length_eq_zero_iff.mp h0] at hi; simp [ofTable] at hi
    · exact h0
  have hbuild := build_class (ofTable ggqScale b0) (ofTable ggqScale b1) (ofTable ggqScale cn) e0 m0 a j b i hb hi
    (by rw [length_ofTable]; exact h10) (by simp only [length_ofTable]; omega) (by rw [length_ofTable]; exact h12)
  rw [hbL, hiR, length_ofTable, length_ofTable] at hbuild
  have hrule : getGGQ degree e method = .ok (unscale e (classRule ggqScale b0 b1 cn L R e0 m0 a j)) := by
    unfold getGGQ
    simp only [h3, hbase, hm]
    by_cases hpar : n0 % 2 = 0
    · have c1 : 2 * (m0 + 2 * b1.length * j) = numDofs p r e := by
        rw [hn, hm0, show 2 * b1.length * j = 2 * (b1.length * j) by ring]; omega
      rw [if_pos hpar] at h7
      rw [if_pos c1, if_pos (by omega)]
      have hcn0 : ofTable ggqScale cn = [] := by rw [hcn, if_pos hpar]; rfl
      rw [hcn0] at hbuild
      have hcn1 : cn = [] := by rw [hcn, if_pos hpar]
      rw [hbuild]
      simp only [Except.map]
      rw [scale_eq, classRule, hcn0]
    · have c1 : ¬ 2 * (m0 + 2 * b1.length * j) = numDofs p r e := by
        rw [hn, hm0, show 2 * b1.length * j = 2 * (b1.length * j) by ring]; omega
      rw [if_neg hpar] at h7
      rw [if_neg c1, if_pos (by omega)]
      have hcn1 : cn = b2 := by rw [hcn, if_neg hpar]
      rw [hcn1] at hbuild
      rw [hbuild]
      simp only [Except.map]
      rw [scale_eq, classRule, hcn1]
  refine ⟨hrule, ?_, h1⟩
  have : p + 1 + (e - 1) * (p - r) = numDofs p r e := (numDofs_eq he1 h2).symm
  rw [this]
  have h14 : (numDofs p r e + 1) / 2 = m0 + 2 * b1.length * j := hm
  rw [h14]
  simp only [classRule, List.length_append, length_shift, length_mirror, length_reps, length_ofTable, List.length_take,
    length_midPart _ _ _ _ _ _ (show 0 < (ofTable ggqScale b1).length by rw [length_ofTable]; exact hb1pos)]
  rw [show 2 * b1.length * j = 2 * (b1.length * j) by ring]
  omega

theorem class_good {degree : Nat} {method : Method} {p r : Nat} {Lg : Lagrange} (hLg : Lg.ok = true)
    {b0 b1 b2 : List (Int × Int)} {L R e0 : Nat} {c : Cert}
    (h : classData degree method p r Lg b0 b1 b2 L R e0 c = true) (j : Nat) :
    ∃ rule, getGGQ degree (e0 + 2 * R * j) method = .ok rule ∧ GoodRule p r (e0 + 2 * R * j) rule := by
  simp only [classData, Bool.and_eq_true, decide_eq_true_eq] at h
  obtain ⟨⟨h1, h2⟩, h3⟩ := h
  obtain ⟨hrule, hlen, he⟩ := class_rule rfl rfl rfl rfl h1 j
  obtain ⟨hseg, hord⟩ := classOK_sound Lg hLg (S := ggqScale) (by norm_num [ggqScale]) (by norm_num) h3 j
  refine ⟨_, hrule, ?_⟩
  rw [h2] at hseg
  exact good_of_seg (by omega) hseg hord hlen


theorem direct_good {degree : Nat} {method : Method} {p r : Nat} {Lg : Lagrange} (hLg : Lg.ok = true)
    {b0 b1 b2 : List (Int × Int)} {L R e0 : Nat} {sp : List (Nat × List Int)}
    (h : directData degree method p r Lg b0 b1 b2 L R e0 sp = true) :
    ∃ rule, getGGQ degree e0 method = .ok rule ∧ GoodRule p r e0 rule := by
  simp only [directData, Bool.and_eq_true, decide_eq_true_eq] at h
  obtain ⟨⟨⟨⟨h1, h2⟩, h3⟩, h4⟩, h5⟩ := h
  obtain ⟨hrule, hlen, he⟩ := class_rule rfl rfl rfl rfl h1 0
  have hS : 0 < ggqScale := by norm_num [ggqScale]
  have hS2 : 0 < 2 * ggqScale := by omega
  have hseg := checkSeg_sound Lg hLg _ hS2 1 (10 ^ 12) (by norm_num) (r + 1) _ _ _ _ _ h4
  have hord := ord_of_check (a := 0) (b := 0) hS2 (I := Ioo 0 (e0 : ℚ)) h5 (fun x h1 h2 => by
    simp only [decide_eq_true_eq] at h1 h2
    refine ⟨?_, (div_lt_nat hS2 x e0).mpr h2⟩
    have := (nat_lt_div hS2 x 0).mpr (by simpa using h1); simpa using this)
  rw [h3, Nat.zero_add, h2] at hseg
  simp only [classRule, reps, Nat.mul_zero, Nat.add_zero, Nat.cast_zero, add_zero, shift_zero] at hrule hlen
  have hnil : ∀ d, shift d [] = [] := fun d => rfl
  rw [hnil, hnil, List.append_nil, List.append_nil] at hrule hlen
  rw [ofTable_append, ofTable_append, ofTable_append, ofTable_take, ofTable_mirrorI hS2, ofTable_mirrorI hS2,
    ofTable_midI hS, ofTable_dbl] at hseg hord
  exact ⟨_, hrule, good_of_seg (by omega) hseg hord hlen⟩

/-- positions and weights times `e` -/
def mulI (e : Nat) (l : List (Int × Int)) : List (Int × Int) := l.map fun q => ((e : Int) * q.1, (e : Int) * q.2)

theorem unscale_mulI {e : Nat} (he : 0 < e) (S : Nat) (l : List (Int × Int)) :
    unscale e (ofTable S (mulI e l)) = ofTable S l := by
  have : (e : ℚ) ≠ 0 := by exact_mod_cast he.ne'
  simp only [unscale, ofTable, mulI, List.map_map, Function.comp_def]
  congr 1; funext q
  push_cast
  congr 1 <;> field_simp

/-- The check of a rule that is stored for `e` spans. -/
def rowOK (p r : Nat) (Lg : Lagrange) (S e : Nat) (row : List (Int × Int)) (sp : List (Nat × List Int)) : Bool :=
  decide (0 < e) && decide (sp.length = e) && decide (row.length = (p + 1 + (e - 1) * (p - r) + 1) / 2) && decide (Lg.p = p) &&
    checkSeg Lg S 1 (10 ^ 12) (r + 1) sp 0 (mulI e row) [] [] &&
    ordI (fun x => decide (0 < x) && decide (x < ((e * S : Nat) : Int))) (mulI e row)

theorem rowOK_sound {p r : Nat} {Lg : Lagrange} (hLg : Lg.ok = true) {S e : Nat} (hS : 0 < S) {row : List (Int × Int)}
    {sp : List (Nat × List Int)} (h : rowOK p r Lg S e row sp = true) : GoodRule p r e (ofTable S row) := by
  simp only [rowOK, Bool.and_eq_true, decide_eq_true_eq] at h
  obtain ⟨⟨⟨⟨⟨h1, h2⟩, h3⟩, h4⟩, h5⟩, h6⟩ := h
  have hseg := checkSeg_sound Lg hLg S hS 1 (10 ^ 12) (by norm_num) (r + 1) _ _ _ _ _ h5
  rw [h2, Nat.zero_add, h4] at hseg
  have hord := ord_of_check (a := 0) (b := 0) hS (I := Ioo 0 (e : ℚ)) h6 (fun x h1 h2 => by
    simp only [decide_eq_true_eq] at h1 h2
    refine ⟨?_, (div_lt_nat hS x e).mpr h2⟩
    have := (nat_lt_div hS x 0).mpr (by simpa using h1); simpa using this)
  have := good_of_seg h1 hseg hord (by rw [length_ofTable]; simpa [mulI] using h3)
  rwa [unscale_mulI h1] at this

/-- The tables of precomputed rules. -/
def preTable : Method → List (List (List (Int × Int)))
  | .ggqOptimal => precomputedOptimal
  | .ggqReduced1 => precomputedReduced1
  | .ggqReduced2 => precomputedReduced2
  | _ => []

/-- The rule for `e` spans is taken from the table. -/
def fromTable (degree e : Nat) (method : Method) : Bool :=
  match spaceDimension degree method with
  | .error _ => false
  | .ok (p, r) =>
    match basePoints degree e method with
    | .ok [b0, _, b2] =>
      let n := numDofs p r e
      let m := numPoints n
      if 2 * m = n then decide (¬ m > 2 * b0.length) else decide (¬ m > 2 * (b0.length + b2.length) - 1)
    | _ => false

theorem getGGQ_fromTable {degree e : Nat} {method : Method} (h : fromTable degree e method = true) :
    getGGQ degree e method = precomputed degree e method := by
  unfold fromTable at h
  unfold getGGQ
  split at h
  · exact absurd h (by simp)
  · rename_i p r hd
    rw [hd]
    simp only []
    split at h
    · rename_i b0 b1 b2 hb
      rw [hb]
      simp only [] at h ⊢
      split at h
      · rename_i hp
        rw [if_pos hp, if_neg (of_decide_eq_true h)]
      · rename_i hp
        rw [if_neg hp, if_neg (of_decide_eq_true h)]
    · exact absurd h (by simp)

/-- The check of all rules taken from a table; `cert` lists the numbers of spans with their certificates. -/
def tableOK (degree : Nat) (method : Method) (p r : Nat) (Lg : Lagrange) (table : List (List (Int × Int)))
    (cert : List (Nat × List (Nat × List Int))) : Bool :=
  cert.all fun c => fromTable degree c.1 method && decide (1 ≤ c.1) && match table[c.1 - 1]? with
    | none => false
    | some row => rowOK p r Lg ggqScale c.1 row c.2

theorem tableOK_cons {degree : Nat} {method : Method} {p r : Nat} {Lg : Lagrange} {table : List (List (Int × Int))}
    {c : Nat × List (Nat × List Int)} {t : List (Nat × List (Nat × List Int))}
    (h1 : tableOK degree method p r Lg table [c] = true) (h2 : tableOK degree method p r Lg table t = true) :
    tableOK degree method p r Lg table (c :: t) = true := by
  unfold tableOK at *
  simp only [List.all_cons, List.all_nil, Bool.and_true] at h1
  rw [List.all_cons, h1, h2]; rfl

theorem table_good {degree : Nat} {method : Method} {p r : Nat} {Lg : Lagrange} (hLg : Lg.ok = true)
    {table : List (List (Int × Int))} {cert : List (Nat × List (Nat × List Int))} (hd : 2 ≤ degree)
    (ht : (preTable method)[degree - 2]? = some table)
    (h : tableOK degree method p r Lg table cert = true) {e : Nat} (he : e ∈ cert.map (·.1)) :
    ∃ rule, getGGQ degree e method = .ok rule ∧ GoodRule p r e rule := by
  obtain ⟨c, hc, rfl⟩ := List.mem_map.mp he
  have h1 := List.all_eq_true.mp h c hc
  simp only [Bool.and_eq_true, decide_eq_true_eq] at h1
  obtain ⟨⟨h2, h3⟩, h4⟩ := h1
  split at h4
  · exact absurd h4 (by simp)
  · rename_i row hrow
    refine ⟨ofTable ggqScale row, ?_, rowOK_sound hLg (by norm_num [ggqScale]) h4⟩
    rw [getGGQ_fromTable h2]
    unfold precomputed
    cases method <;> simp only [preTable, List.getElem?_nil, reduceCtorEq] at ht <;>
      simp [entry, ht, hrow, Except.bind, Except.map, not_lt.mpr hd, not_lt.mpr h3]

end QuESo.Rules
