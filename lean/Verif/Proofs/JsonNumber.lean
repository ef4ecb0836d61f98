import Mathlib.Tactic.Linarith
import Mathlib.Tactic.Ring
import Mathlib.Tactic.FieldSimp
import Mathlib.Tactic.LinearCombination
import Mathlib.Tactic.Positivity
import Verif.Spec.Json

/-! # Numbers written and read as text -/
namespace QuESo.Json
open QuESo.Settings QuESo.Spec

theorem digitOf_char {n : Nat} (h : n < 10) : digitOf (digitChar n) = some n := by
  have : ∀ n < 10, digitOf (digitChar n) = some n := by decide +kernel
  exact this n h

/-- All characters are digits. -/
def Digits (t : Text) : Prop := ∀ c ∈ t, (digitOf c).isSome

/-- The value of digits behind a number. -/
def val : Nat → Text → Nat
  | a, [] => a
  | a, c :: t => val (10 * a + (digitOf c).getD 0) t

theorem digitsFrom_val {t : Text} (h : Digits t) (a : Nat) : digitsFrom a t = some (val a t) := by
  induction t generalizing a with
  | nil => rfl
  | cons c t ih =>
    obtain ⟨d, hd⟩ := Option.isSome_iff_exists.1 (h c (by simp))
    simp only [digitsFrom, val, hd, Option.bind_some, Option.getD_some]
    exact ih (fun x hx => h x (by simp [hx])) _

theorem val_append (a : Nat) (s t : Text) : val a (s ++ t) = val (val a s) t := by
  induction s generalizing a with
  | nil => rfl
  | cons c s ih => exact ih _

theorem val_eq (a : Nat) (t : Text) : val a t = a * 10 ^ t.length + val 0 t := by
  induction t generalizing a with
  | nil => simp [val]
  | cons c t ih =>
    simp only [val, List.length_cons]
    rw [ih (10 * a + _), ih (10 * 0 + _)]
    ring

theorem val_zeros (a k : Nat) : val a (List.replicate k '0') = a * 10 ^ k := by
  induction k generalizing a with
  | zero => simp [val]
  | succ k ih =>
    rw [List.replicate_succ, val, ih]
    have : (digitOf '0').getD 0 = 0 := by decide +kernel
    rw [this]; ring

theorem Digits.append {s t : Text} (hs : Digits s) (ht : Digits t) : Digits (s ++ t) := by
  intro c hc
  rcases List.mem_append.1 hc with h | h
  · exact hs c h
  · exact ht c h

theorem decimal_digits (n : Nat) : Digits (decimal n) := by
  induction n using Nat.strong_induction_on with
  | _ n ih =>
    rw [decimal]
    split
    · next h => intro c hc; simp only [List.mem_singleton] at hc; subst hc; rw [digitOf_char h]; rfl
    · next h =>
      refine (ih _ (by omega)).append ?_
      intro c hc; simp only [List.mem_singleton] at hc; subst hc; rw [digitOf_char (by omega)]; rfl

theorem decimal_val (n : Nat) : val 0 (decimal n) = n := by
  induction n using Nat.strong_induction_on with
  | _ n ih =>
    rw [decimal]
    split
    · next h => simp [val, digitOf_char h]
    · next h =>
      rw [val_append, ih _ (by omega)]
      simp only [val, digitOf_char (show n % 10 < 10 by omega), Option.getD_some]
      omega

theorem decimal_ne (n : Nat) : decimal n ≠ [] := by
  rw [decimal]; split <;> simp

theorem decimal_length (k : Nat) (n : Nat) (h1 : 10 ^ k ≤ n) (h2 : n < 10 ^ (k + 1)) : (decimal n).length = k + 1 := by
  induction k generalizing n with
  | zero => rw [decimal]; simp at h2; simp [h2]
  | succ k ih =>
    rw [decimal]
    have hp : 10 ^ (k + 1) = 10 * 10 ^ k := by ring
    have hp2 : 10 ^ (k + 1 + 1) = 10 * 10 ^ (k + 1) := by ring
    have : 0 < 10 ^ k := by positivity
    rw [if_neg (by omega), List.length_append, ih (n / 10) (by omega) (by omega)]
    rfl

theorem decimal_head (n : Nat) (h : 0 < n) : (decimal n).head? ≠ some '0' := by
  induction n using Nat.strong_induction_on with
  | _ n ih =>
    rw [decimal]
    split
    · next h10 =>
      have : ∀ n < 10, 0 < n → digitChar n ≠ '0' := by decide +kernel
      simpa using this n h10 h
    · next h10 =>
      have := ih (n / 10) (by omega) (by omega)
      cases hd : decimal (n / 10) with
      | nil => exact absurd hd (decimal_ne _)
      | cons c t => rw [hd] at this; simpa using this

/-! ## Cutting -/

theorem cut_append (p : Char → Bool) (s t : Text) (hs : ∀ c ∈ s, p c = false) (ht : ∀ c, t.head? = some c → p c = true) :
    cut p (s ++ t) = (s, t) := by
  induction s with
  | nil =>
    cases t with
    | nil => rfl
    | cons c t => simp [cut, ht c (by simp)]
  | cons c s ih =>
    have := ih (fun x hx => hs x (by simp [hx]))
    simp [cut, hs c (by simp), this]

theorem digit_not {c : Char} (h : (digitOf c).isSome) : c ≠ '.' ∧ c ≠ 'e' ∧ c ≠ 'E' ∧ c ≠ '-' ∧ c ≠ '+' := by
  refine ⟨?_, ?_, ?_, ?_, ?_⟩ <;> rintro rfl <;> revert h <;> decide +kernel

theorem stripZeros_spec (t : Text) : ∃ k, t = stripZeros t ++ List.replicate k '0' := by
  unfold stripZeros
  have h := List.takeWhile_append_dropWhile (p := fun c : Char => decide (c = '0')) (l := t.reverse)
  refine ⟨(t.reverse.takeWhile (fun c : Char => decide (c = '0'))).length, ?_⟩
  have h2 : t.reverse.takeWhile (fun c : Char => decide (c = '0')) =
      List.replicate (t.reverse.takeWhile (fun c : Char => decide (c = '0'))).length '0' := by
    rw [List.eq_replicate_iff]
    refine ⟨rfl, fun b hb => ?_⟩
    have := List.all_takeWhile (p := fun c : Char => decide (c = '0')) (l := t.reverse)
    rw [List.all_eq_true] at this
    simpa using this b hb
  have h3 := congrArg List.reverse h
  rw [List.reverse_append, List.reverse_reverse] at h3
  rw [h2, List.reverse_replicate] at h3
  simpa using h3.symm

theorem Digits.strip {t : Text} (h : Digits t) : Digits (stripZeros t) := by
  obtain ⟨k, hk⟩ := stripZeros_spec t
  intro c hc
  exact h c (by rw [hk]; simp [hc])

theorem exponentOf_exponent (x : Int) : exponentOf (exponent x) = some (some x) := by
  have hd : ∀ n : Nat, digitsOf (if n < 10 then '0' :: decimal n else decimal n) = some n := by
    intro n
    unfold digitsOf
    split
    · next h => rw [if_neg (by simp), digitsFrom_val (t := '0' :: decimal n)]
                · have : (digitOf '0').getD 0 = 0 := by decide +kernel
                  simp [val, this, decimal_val]
                · intro c hc
                  rcases List.mem_cons.1 hc with rfl | hc
                  · decide +kernel
                  · exact decimal_digits n c hc
    · next h => rw [if_neg (decimal_ne n), digitsFrom_val (decimal_digits n), decimal_val]
  unfold exponent
  by_cases hx : x < 0
  · rw [if_pos hx]
    simp only [exponentOf, hd, Option.map_some]
    congr 2; omega
  · rw [if_neg hx]
    simp only [exponentOf, hd, Option.map_some]
    congr 2; omega

/-- A number of the form `digits fraction exponent`. -/
theorem unsignedTok_parts (rnd : ℚ → ℚ) (neg : Bool) (i F e : Text) (ex : Option Int) (hi : Digits i) (hne : i ≠ [])
    (hz : i.length = 1 ∨ i.head? ≠ some '0') (hF : Digits F) (he : exponentOf e = some ex)
    (he1 : e = [] ↔ ex = none) (he2 : ∀ c, e.head? = some c → c = 'e') :
    unsignedTok rnd neg (i ++ fraction F ++ e) =
      if stripZeros F = [] ∧ ex = none then some (.int (if neg then -(val 0 i : Int) else val 0 i))
      else some (.float (rnd ((if neg then -1 else 1) * (val 0 (i ++ F) : ℚ) * 10 ^ (ex.getD 0 - (F.length : Int))))) := by
  have hfr : ∀ c ∈ i ++ fraction F, (decide (c = 'e' ∨ c = 'E')) = false := by
    intro c hc
    rw [List.mem_append] at hc
    rcases hc with hc | hc
    · have := digit_not (hi c hc); simp [this]
    · unfold fraction at hc
      split at hc
      · simp at hc
      · rcases List.mem_cons.1 hc with rfl | hc
        · decide
        · have := digit_not (hF.strip c hc); simp [this]
  have hc1 : cut (fun c => c = 'e' ∨ c = 'E') (i ++ fraction F ++ e) = (i ++ fraction F, e) := by
    refine cut_append _ _ _ hfr ?_
    intro c hc
    simp [he2 c hc]
  have hc2 : cut (fun c => c = '.') (i ++ fraction F) = (i, fraction F) := by
    refine cut_append _ _ _ ?_ ?_
    · intro c hc; have := digit_not (hi c hc); simp [this]
    · intro c hc
      unfold fraction at hc
      split at hc
      · simp at hc
      · simp at hc; simp [← hc]
  have hdi : digitsOf i = some (val 0 i) := by
    unfold digitsOf; rw [if_neg hne, digitsFrom_val hi]
  have hfo : fractionOf (fraction F) = some (if stripZeros F = [] then none else some (stripZeros F)) := by
    unfold fraction
    split
    · rfl
    · next h => simp [fractionOf, digitsOf, h, digitsFrom_val hF.strip]
  have hlead : ¬ (i.length ≠ 1 ∧ i.head? = some '0') := by tauto
  obtain ⟨k, hk⟩ := stripZeros_spec F
  have hval : ∀ E : Int, (val (val 0 i) (stripZeros F) : ℚ) * 10 ^ (E - ((stripZeros F).length : Int)) =
      (val 0 (i ++ F) : ℚ) * 10 ^ (E - (F.length : Int)) := by
    intro E
    have h1 : val 0 (i ++ F) = val (val 0 i) (stripZeros F) * 10 ^ k := by
      conv_lhs => rw [hk]
      rw [val_append, val_append, val_zeros]
    have h2 : (F.length : Int) = (stripZeros F).length + k := by
      conv_lhs => rw [hk]
      simp
    rw [h1, h2, Nat.cast_mul, Nat.cast_pow, Nat.cast_ofNat]
    rw [show E - ((stripZeros F).length : Int) = (E - (((stripZeros F).length : Int) + k)) + k by ring, zpow_add₀ (by norm_num)]
    rw [zpow_natCast]; ring
  unfold unsignedTok
  simp only [hc1, hc2, he, hfo, hdi, Option.bind_some, if_neg hlead]
  by_cases hs : stripZeros F = []
  · simp only [hs, if_true, true_and]
    cases ex with
    | none => simp
    | some x =>
      have := hval x
      simp only [hs, val, List.length_nil] at this
      simp only [Option.getD_none, digitsFrom, Option.map_some, reduceCtorEq, if_false, Option.getD_some, List.length_nil]
      rw [mul_assoc, this, ← mul_assoc]
  · simp only [hs, if_false, false_and]
    have := hval (ex.getD 0)
    have hm : digitsFrom (val 0 i) (stripZeros F) = some (val (val 0 i) (stripZeros F)) := digitsFrom_val hF.strip _
    cases ex with
    | none => 
      simp only [Option.getD_some, hm, Option.map_some]
      rw [mul_assoc, this, ← mul_assoc]
    | some x =>
      simp only [Option.getD_some, hm, Option.map_some]
      simp only [Option.getD_some] at this
      rw [mul_assoc, this, ← mul_assoc]

/-! ## Ten digits -/

theorem roundNat_near {x : ℚ} (hx : 0 ≤ x) : |(roundNat x : ℚ) - x| ≤ 1 / 2 := by
  have h1 := Nat.floor_le hx
  have h2 := Nat.lt_floor_add_one x
  unfold roundNat
  simp only
  rw [abs_le]
  split
  · constructor <;> linarith
  · split
    · push_cast; constructor <;> linarith
    · split
      · constructor <;> linarith
      · push_cast; constructor <;> linarith

theorem roundNat_cases (x : ℚ) : roundNat x = ⌊x⌋₊ ∨ roundNat x = ⌊x⌋₊ + 1 := by
  unfold roundNat
  simp only
  split
  · exact Or.inl rfl
  · split
    · exact Or.inr rfl
    · split
      · exact Or.inl rfl
      · exact Or.inr rfl

theorem roundNat_nat (n : Nat) : roundNat (n : ℚ) = n := by
  unfold roundNat
  simp

/-- The scaled number is between `10^9` and `10^10`. -/
theorem scaled_bounds {q : ℚ} (hq : q ≠ 0) :
    (10 : ℚ) ^ 9 ≤ |q| * 10 ^ (9 - Int.log 10 |q|) ∧ |q| * 10 ^ (9 - Int.log 10 |q|) < 10 ^ 10 := by
  have hp : 0 < |q| := abs_pos.2 hq
  have h1 := Int.zpow_log_le_self (b := 10) (by norm_num) hp
  have h2 := Int.lt_zpow_succ_log_self (b := 10) (by norm_num) |q|
  simp only [Nat.cast_ofNat] at h1 h2
  have hpos : (0 : ℚ) < 10 ^ (9 - Int.log 10 |q|) := zpow_pos (by norm_num) _
  constructor
  · calc (10 : ℚ) ^ 9 = 10 ^ (Int.log 10 |q|) * 10 ^ (9 - Int.log 10 |q|) := by
          rw [← zpow_add₀ (by norm_num)]; norm_num
      _ ≤ _ := by gcongr
  · calc |q| * 10 ^ (9 - Int.log 10 |q|) < 10 ^ (Int.log 10 |q| + 1) * 10 ^ (9 - Int.log 10 |q|) := by gcongr
      _ = 10 ^ 10 := by
          rw [← zpow_add₀ (by norm_num), show Int.log 10 |q| + 1 + (9 - Int.log 10 |q|) = 10 by ring]; norm_num

theorem round_bounds {q : ℚ} (hq : q ≠ 0) :
    10 ^ 9 ≤ roundNat (|q| * 10 ^ (9 - Int.log 10 |q|)) ∧ roundNat (|q| * 10 ^ (9 - Int.log 10 |q|)) ≤ 10 ^ 10 := by
  obtain ⟨h1, h2⟩ := scaled_bounds hq
  set y := |q| * 10 ^ (9 - Int.log 10 |q|) with hy
  have ha : 10 ^ 9 ≤ ⌊y⌋₊ := Nat.le_floor (by push_cast; exact h1)
  have hb : ⌊y⌋₊ < 10 ^ 10 := by
    rw [Nat.floor_lt (by linarith [show (0 : ℚ) ≤ 10 ^ 9 by norm_num])]
    push_cast; exact h2
  rcases roundNat_cases y with h | h <;> rw [h] <;> omega

/-- The digits and the exponent represent the rounded number. -/
theorem tenDigits_spec {q : ℚ} (hq : q ≠ 0) :
    10 ^ 9 ≤ (tenDigits q).1 ∧ (tenDigits q).1 < 10 ^ 10 ∧
      tenSignificant q = (if q < 0 then -1 else 1) * ((tenDigits q).1 : ℚ) * 10 ^ ((tenDigits q).2 - 9) := by
  obtain ⟨h1, h2⟩ := round_bounds hq
  have hunit : |q| / 10 ^ (Int.log 10 |q| - 9) = |q| * 10 ^ (9 - Int.log 10 |q|) := by
    rw [show (9 - Int.log 10 |q|) = -(Int.log 10 |q| - 9) by ring, zpow_neg]; rfl
  unfold tenSignificant tenDigits
  simp only [hunit]
  set m := roundNat (|q| * 10 ^ (9 - Int.log 10 |q|)) with hm
  by_cases hmm : m = 10 ^ 10
  · rw [if_pos hmm]
    refine ⟨le_refl _, by norm_num, ?_⟩
    rw [hmm]
    have : (10 : ℚ) ^ (Int.log 10 |q| + 1 - 9) = 10 * 10 ^ (Int.log 10 |q| - 9) := by
      rw [show Int.log 10 |q| + 1 - 9 = 1 + (Int.log 10 |q| - 9) by ring, zpow_add₀ (by norm_num)]; norm_num
    simp only [this]
    split <;> push_cast <;> ring
  · rw [if_neg hmm]
    refine ⟨h1, by omega, ?_⟩
    simp only
    split <;> ring

theorem decimal_ten {m : Nat} (h1 : 10 ^ 9 ≤ m) (h2 : m < 10 ^ 10) : (decimal m).length = 10 := decimal_length 9 m h1 h2

/-- The token of a written number without sign: an integer if the number is whole and has at most ten digits, else a
`float`. -/
theorem layout_tok (rnd : ℚ → ℚ) (neg : Bool) {m : Nat} (h1 : 10 ^ 9 ≤ m) (h2 : m < 10 ^ 10) (x : Int) :
    (∃ z : Nat, unsignedTok rnd neg (layout (decimal m) x) = some (.int (if neg then -(z : Int) else z)) ∧
      (z : ℚ) = m * 10 ^ (x - 9) ∧ z < 10 ^ 10) ∨
    (unsignedTok rnd neg (layout (decimal m) x) = some (.float (rnd ((if neg then -1 else 1) * (m : ℚ) * 10 ^ (x - 9)))) ∧
      ¬ ∃ z : Nat, (z : ℚ) = m * 10 ^ (x - 9) ∧ z < 10 ^ 10) := by
  have hlen := decimal_ten h1 h2
  have hdig := decimal_digits m
  have hval := decimal_val m
  have hhead := decimal_head m (by omega)
  unfold layout
  by_cases hs : x < -4 ∨ 10 ≤ x
  · -- scientific
    right
    rw [if_pos hs]
    have hd1 : Digits ((decimal m).take 1) := fun c hc => hdig c (List.mem_of_mem_take hc)
    have hd2 : Digits ((decimal m).drop 1) := fun c hc => hdig c (List.mem_of_mem_drop hc)
    have := unsignedTok_parts rnd neg ((decimal m).take 1) ((decimal m).drop 1) (exponent x) (some x) hd1
      (by intro h; have := congrArg List.length h; rw [List.length_take, hlen] at this; simp at this)
      (Or.inl (by rw [List.length_take, hlen]; rfl)) hd2 (exponentOf_exponent x)
      (by simp [exponent]) (by intro c hc; simp [exponent] at hc; exact hc.symm)
    rw [this, if_neg (by simp), List.take_append_drop, hval]
    refine ⟨?_, ?_⟩
    · rw [List.length_drop, hlen]; rfl
    · rintro ⟨z, hz, hzl⟩
      have hm1 : (10 : ℚ) ^ 9 ≤ m := by exact_mod_cast h1
      rcases hs with hs | hs
      · -- too small
        have hz1 : (z : ℚ) < 1 := by
          rw [hz]
          calc (m : ℚ) * 10 ^ (x - 9) ≤ m * 10 ^ (-14 : Int) := by
                gcongr
                · norm_num
                · omega
            _ < 10 ^ 10 * 10 ^ (-14 : Int) := by
                gcongr; exact_mod_cast h2
            _ < 1 := by norm_num
        have hz0 : (0 : ℚ) < z := by
          rw [hz]; exact mul_pos (by linarith [show (0 : ℚ) < 10 ^ 9 by norm_num]) (zpow_pos (by norm_num) _)
        have a : z < 1 := by exact_mod_cast hz1
        have b : 0 < z := by exact_mod_cast hz0
        omega
      · have : (10 : ℚ) ^ 10 ≤ z := by
          rw [hz]
          calc (10 : ℚ) ^ 10 = 10 ^ 9 * (10 : ℚ) ^ (1 : Int) := by norm_num
            _ ≤ (m : ℚ) * 10 ^ (x - 9) := by
              gcongr
              · norm_num
              · omega
        have : 10 ^ 10 ≤ z := by exact_mod_cast this
        omega
  · rw [if_neg hs]
    rw [not_or, not_lt, not_le] at hs
    by_cases hx : x < 0
    · -- 0.000ddd
      right
      rw [if_pos hx]
      set Z := List.replicate (-x - 1).toNat '0' with hZ
      have hZd : Digits Z := by
        intro c hc; rw [hZ, List.mem_replicate] at hc; rw [hc.2]; decide +kernel
      have h := unsignedTok_parts rnd neg ['0'] (Z ++ decimal m) [] none
        (by intro c hc; simp only [List.mem_singleton] at hc; subst hc; decide +kernel) (by simp) (Or.inl rfl) (hZd.append hdig) rfl (by simp) (by simp)
      rw [List.append_nil] at h
      rw [show '0' :: fraction (Z ++ decimal m) = ['0'] ++ fraction (Z ++ decimal m) from rfl, h]
      have hv : val 0 (['0'] ++ (Z ++ decimal m)) = m := by
        rw [val_append, val_append, hZ, val_zeros]
        have : val 0 ['0'] = 0 := by decide +kernel
        rw [this, zero_mul, hval]
      have hl : ((none : Option Int).getD 0 - ((Z ++ decimal m).length : Int)) = x - 9 := by
        rw [List.length_append, hlen, hZ, List.length_replicate]
        simp only [Option.getD_none]
        push_cast
        omega
      have hnot : ¬ stripZeros (Z ++ decimal m) = [] := by
        intro h0
        obtain ⟨k, hk⟩ := stripZeros_spec (Z ++ decimal m)
        rw [h0, List.nil_append] at hk
        have hvv : val 0 (Z ++ decimal m) = m := by
          rw [val_append, hZ, val_zeros, zero_mul, hval]
        rw [hk, val_zeros] at hvv
        omega
      rw [if_neg (by tauto), hv, hl]
      refine ⟨rfl, ?_⟩
      rintro ⟨z, hz, -⟩
      have hz1 : (z : ℚ) < 1 := by
        rw [hz]
        calc (m : ℚ) * 10 ^ (x - 9) ≤ m * 10 ^ (-10 : Int) := by
              gcongr
              · norm_num
              · omega
          _ < 10 ^ 10 * 10 ^ (-10 : Int) := by
              gcongr; exact_mod_cast h2
          _ ≤ 1 := by norm_num
      have hz0 : (0 : ℚ) < z := by
        have : (0 : ℚ) < m := by exact_mod_cast (show 0 < m by omega)
        rw [hz]; exact mul_pos this (zpow_pos (by norm_num) _)
      have a : z < 1 := by exact_mod_cast hz1
      have b : 0 < z := by exact_mod_cast hz0
      omega
    · -- fixed
      rw [if_neg hx]
      obtain ⟨n, rfl⟩ : ∃ n : Nat, x = n := ⟨x.toNat, by omega⟩
      rw [Int.toNat_natCast]
      have hn : n < 10 := by omega
      set i := (decimal m).take (n + 1) with hi
      set F := (decimal m).drop (n + 1) with hF
      have hiF : i ++ F = decimal m := List.take_append_drop _ _
      have hd1 : Digits i := fun c hc => hdig c (List.mem_of_mem_take hc)
      have hd2 : Digits F := fun c hc => hdig c (List.mem_of_mem_drop hc)
      have hli : i.length = n + 1 := by rw [hi, List.length_take, hlen]; omega
      have hlF : F.length = 9 - n := by rw [hF, List.length_drop, hlen]; omega
      have hne : i ≠ [] := by intro h; rw [h] at hli; simp at hli
      have hih : i.head? ≠ some '0' := by
        rw [hi, List.head?_take, if_neg (by omega)]; exact hhead
      have h := unsignedTok_parts rnd neg i F [] none hd1 hne (Or.inr hih) hd2 rfl (by simp) (by simp)
      rw [List.append_nil] at h
      rw [h, hiF, hval]
      have hex : ((none : Option Int).getD 0 - (F.length : Int)) = (n : Int) - 9 := by
        simp only [Option.getD_none]; omega
      rw [hex]
      have hsplit : (m : ℚ) = val 0 i * 10 ^ (9 - n) + val 0 F := by
        have := hval
        rw [← hiF, val_append, val_eq, hlF] at this
        exact_mod_cast this.symm
      have hpow : (10 : ℚ) ^ ((n : Int) - 9) * 10 ^ (9 - n) = 1 := by
        rw [← zpow_natCast, ← zpow_add₀ (by norm_num), Nat.cast_sub (by omega)]
        norm_num
      by_cases hst : stripZeros F = []
      · left
        refine ⟨val 0 i, by rw [if_pos ⟨hst, rfl⟩], ?_, ?_⟩
        · obtain ⟨k, hk⟩ := stripZeros_spec F
          rw [hst, List.nil_append] at hk
          have hF0 : val 0 F = 0 := by rw [hk, val_zeros, zero_mul]
          rw [hsplit, hF0, Nat.cast_zero, add_zero, mul_assoc, mul_comm ((10 : ℚ) ^ (9 - n)), hpow, mul_one]
        · have := hval
          rw [← hiF, val_append, val_eq] at this
          have : val 0 i ≤ m := by
            calc val 0 i ≤ val 0 i * 10 ^ F.length := Nat.le_mul_of_pos_right _ (by positivity)
              _ ≤ m := by omega
          omega
      · right
        refine ⟨by rw [if_neg (by tauto)], ?_⟩
        rintro ⟨z, hz, -⟩
        -- the value of F is a multiple of 10^(9-n) below 10^(9-n), hence zero
        have hmz : m = z * 10 ^ (9 - n) := by
          have : (m : ℚ) = z * 10 ^ (9 - n) := by
            rw [hz, mul_assoc, hpow, mul_one]
          exact_mod_cast this
        have hFlt : val 0 F < 10 ^ (9 - n) := by
          have key : ∀ t : Text, Digits t → val 0 t < 10 ^ t.length := by
            intro t ht
            induction t with
            | nil => simp [val]
            | cons c t ih =>
              have := ih (fun y hy => ht y (by simp [hy]))
              rw [val, val_eq, List.length_cons, pow_succ]
              have hc : (digitOf c).getD 0 ≤ 9 := by
                unfold digitOf
                split
                · simp only [Option.getD_some]; omega
                · simp
              nlinarith [Nat.mul_le_mul_right (10 ^ t.length) hc]
          rw [← hlF]; exact key F hd2
        have hF0 : val 0 F = 0 := by
          have h3 : m = val 0 i * 10 ^ (9 - n) + val 0 F := by exact_mod_cast hsplit
          have h4 : m % 10 ^ (9 - n) = 0 := by rw [hmz]; exact Nat.mul_mod_left _ _
          rw [h3, Nat.mul_add_mod_self_right, Nat.mod_eq_of_lt hFlt] at h4
          exact h4
        -- digits of value zero are zeros
        apply hst
        have key : ∀ t : Text, Digits t → val 0 t = 0 → t = List.replicate t.length '0' := by
          intro t ht h0
          induction t with
          | nil => rfl
          | cons c t ih =>
            rw [val, val_eq] at h0
            have hp : 0 < 10 ^ t.length := by positivity
            have hc0 : (digitOf c).getD 0 = 0 := by
              rcases Nat.eq_zero_or_pos ((digitOf c).getD 0) with h | h
              · exact h
              · have : 0 < (10 * 0 + (digitOf c).getD 0) * 10 ^ t.length := Nat.mul_pos (by omega) hp
                omega
            have := ih (fun y hy => ht y (by simp [hy])) (by omega)
            have hcc : c = '0' := by
              have h5 := ht c (by simp)
              unfold digitOf at h5 hc0
              split at h5
              · next hr =>
                rw [if_pos hr] at hc0
                simp only [Option.getD_some] at hc0
                apply Char.ext
                apply UInt32.toNat_inj.1
                show c.toNat = _
                have : ('0' : Char).val.toNat = 48 := by decide +kernel
                omega
              · simp at h5
            rw [List.length_cons, List.replicate_succ, ← this, hcc]
        rw [key F hd2 hF0]
        unfold stripZeros
        rw [List.reverse_replicate]
        have : (List.replicate F.length '0').dropWhile (fun c => decide (c = '0')) = [] := by
          simp [List.dropWhile_replicate]
        rw [this]; rfl

/-! ## Written numbers -/

/-- The token of a JSON number. -/
def numberTok : Json → Tok
  | .int z => .int z
  | .float q => .float q
  | _ => .null

theorem layout_head {m : Nat} (h1 : 10 ^ 9 ≤ m) (h2 : m < 10 ^ 10) (x : Int) :
    ∃ c t, layout (decimal m) x = c :: t ∧ (digitOf c).isSome := by
  have hlen := decimal_ten h1 h2
  have hdig := decimal_digits m
  cases hd : decimal m with
  | nil => rw [hd] at hlen; simp at hlen
  | cons c t =>
    rw [hd] at hdig
    unfold layout
    split
    · exact ⟨c, _, rfl, hdig c (by simp)⟩
    · split
      · exact ⟨'0', _, rfl, by decide +kernel⟩
      · exact ⟨c, _, rfl, hdig c (by simp)⟩

theorem numTok_digit (rnd : ℚ → ℚ) {c : Char} {t : Text} (h : (digitOf c).isSome) :
    numTok rnd (c :: t) = unsignedTok rnd false (c :: t) := by
  unfold numTok
  split
  · next heq => simp only [List.cons.injEq] at heq; exact absurd heq.1 (digit_not h).2.2.2.1
  · rfl

theorem tenSignificant_zero : tenSignificant 0 = 0 := by
  have h : roundNat 0 = 0 := by simpa using roundNat_nat 0
  simp [tenSignificant, h]

theorem numJson_int {rnd : ℚ → ℚ} {q : ℚ} {z : Int} (h : (z : ℚ) = tenSignificant q) (hz : z.natAbs < 10 ^ 10) :
    numJson rnd q = .int z := by
  unfold numJson
  rw [← h]
  rw [if_pos]
  · simp
  · simpa using hz

theorem numJson_float {rnd : ℚ → ℚ} {q : ℚ} (h : ¬ ∃ z : Int, (z : ℚ) = tenSignificant q ∧ z.natAbs < 10 ^ 10) :
    numJson rnd q = .float (rnd (tenSignificant q)) := by
  unfold numJson
  rw [if_neg]
  rintro ⟨h1, h2⟩
  exact h ⟨_, Rat.coe_int_num_of_den_eq_one h1, h2⟩

/-- A written number is read as the JSON value of the specification. -/
theorem numTok_format (rnd : ℚ → ℚ) (q : ℚ) : numTok rnd (formatDouble q) = some (numberTok (numJson rnd q)) := by
  unfold formatDouble
  by_cases hq : q = 0
  · subst hq
    rw [if_pos rfl, numJson_int (z := 0) (by rw [tenSignificant_zero]; rfl) (by decide)]
    have : ∀ rnd : ℚ → ℚ, numTok rnd ['0'] = some (.int 0) := fun rnd => by
      have h := unsignedTok_parts rnd false ['0'] [] [] none
        (by intro c hc; simp only [List.mem_singleton] at hc; subst hc; decide +kernel) (by simp) (Or.inl rfl)
        (by intro c hc; simp at hc) rfl (by simp) (by simp)
      rw [numTok_digit rnd (by decide +kernel)]
      rw [show fraction [] = [] from rfl, List.append_nil, List.append_nil] at h
      rw [h, if_pos ⟨rfl, rfl⟩]
      have : val 0 ['0'] = 0 := by decide +kernel
      simp [this]
    rw [this]; rfl
  · rw [if_neg hq]
    obtain ⟨h1, h2, h3⟩ := tenDigits_spec hq
    obtain ⟨c, t, hct, hc⟩ := layout_head h1 h2 (tenDigits q).2
    by_cases hneg : q < 0
    · rw [if_pos hneg] at h3 ⊢
      show unsignedTok rnd true (layout (decimal (tenDigits q).1) (tenDigits q).2) = _
      rcases layout_tok rnd true h1 h2 (tenDigits q).2 with ⟨z, e1, e2, e3⟩ | ⟨e1, e2⟩
      · rw [e1, numJson_int (z := -(z : Int)) (by push_cast; rw [h3, e2]; ring) (by simpa using e3)]; rfl
      · have : ((if true = true then (-1 : ℚ) else 1) * ((tenDigits q).1 : ℚ) * 10 ^ ((tenDigits q).2 - 9)) = tenSignificant q := by
          rw [h3]; rfl
        rw [e1, this, numJson_float]
        · rfl
        · rintro ⟨z, hz, hz2⟩
          apply e2
          refine ⟨z.natAbs, ?_, hz2⟩
          have hneg2 : z ≤ 0 := by
            have : (z : ℚ) ≤ 0 := by
              rw [hz, h3]
              have : (0 : ℚ) ≤ ((tenDigits q).1 : ℚ) * 10 ^ ((tenDigits q).2 - 9) :=
                mul_nonneg (Nat.cast_nonneg _) (zpow_pos (by norm_num) _).le
              linarith
            exact_mod_cast this
          have : ((z.natAbs : Int) : ℚ) = -(z : ℚ) := by
            rw [show (z.natAbs : Int) = -z by omega]; push_cast; rfl
          rw [show ((z.natAbs : ℕ) : ℚ) = ((z.natAbs : Int) : ℚ) by rw [Int.cast_natCast], this, hz, h3]; ring
    · rw [if_neg hneg] at h3 ⊢
      rw [List.nil_append, hct, numTok_digit rnd hc, ← hct]
      rcases layout_tok rnd false h1 h2 (tenDigits q).2 with ⟨z, e1, e2, e3⟩ | ⟨e1, e2⟩
      · rw [e1, numJson_int (z := (z : Int)) (by push_cast; rw [h3, e2]; ring) (by simpa using e3)]; rfl
      · have : ((if false = true then (-1 : ℚ) else 1) * ((tenDigits q).1 : ℚ) * 10 ^ ((tenDigits q).2 - 9)) = tenSignificant q := by
          rw [h3]; rfl
        rw [e1, this, numJson_float]
        · rfl
        · rintro ⟨z, hz, hz2⟩
          apply e2
          refine ⟨z.natAbs, ?_, hz2⟩
          have hneg2 : 0 ≤ z := by
            have : (0 : ℚ) ≤ z := by
              rw [hz, h3]
              have : (0 : ℚ) ≤ ((tenDigits q).1 : ℚ) * 10 ^ ((tenDigits q).2 - 9) :=
                mul_nonneg (Nat.cast_nonneg _) (zpow_pos (by norm_num) _).le
              linarith
            exact_mod_cast this
          have : ((z.natAbs : Int) : ℚ) = (z : ℚ) := by
            rw [show (z.natAbs : Int) = z by omega]
          rw [show ((z.natAbs : ℕ) : ℚ) = ((z.natAbs : Int) : ℚ) by rw [Int.cast_natCast], this, hz, h3]; ring

/-- An index. -/
theorem numTok_decimal (rnd : ℚ → ℚ) (n : Nat) : numTok rnd (decimal n) = some (.int n) := by
  have h := unsignedTok_parts rnd false (decimal n) [] [] none (decimal_digits n) (decimal_ne n)
    (by
      rcases Nat.eq_zero_or_pos n with rfl | h
      · left; rw [decimal]; rfl
      · right; exact decimal_head n h)
    (by intro c hc; simp at hc) rfl (by simp) (by simp)
  rw [show fraction [] = [] from rfl, List.append_nil, List.append_nil, if_pos ⟨rfl, rfl⟩, decimal_val] at h
  cases hd : decimal n with
  | nil => exact absurd hd (decimal_ne n)
  | cons c t =>
    rw [numTok_digit rnd (decimal_digits n c (by rw [hd]; simp)), ← hd, h]
    rfl

/-- Texts of numbers: a digit or a minus sign, followed by characters of numbers. -/
def NumberLike (t : Text) : Prop := ∃ c r, t = c :: r ∧ (c = '-' ∨ (digitOf c).isSome) ∧ ∀ d ∈ r, isNumChar d = true

theorem isNumChar_digit {c : Char} (h : (digitOf c).isSome) : isNumChar c = true := by
  unfold isNumChar; simp [h]

theorem decimal_like (n : Nat) : NumberLike (decimal n) := by
  cases hd : decimal n with
  | nil => exact absurd hd (decimal_ne n)
  | cons c t =>
    have := decimal_digits n
    rw [hd] at this
    exact ⟨c, t, rfl, Or.inr (this c (by simp)), fun d h => isNumChar_digit (this d (by simp [h]))⟩

theorem fraction_chars {F : Text} (h : Digits F) : ∀ d ∈ fraction F, isNumChar d = true := by
  unfold fraction
  split
  · simp
  · intro d hd
    rcases List.mem_cons.1 hd with rfl | hd
    · decide +kernel
    · exact isNumChar_digit (h.strip d hd)

theorem layout_chars (m : Nat) (x : Int) : ∀ d ∈ layout (decimal m) x, isNumChar d = true := by
  have hdig := decimal_digits m
  have hn : ∀ c ∈ decimal m, isNumChar c = true := fun c hc => isNumChar_digit (hdig c hc)
  intro d hd
  unfold layout at hd
  split at hd
  · rw [List.mem_append, List.mem_append] at hd
    rcases hd with (hd | hd) | hd
    · exact hn d (List.mem_of_mem_take hd)
    · exact fraction_chars (fun c hc => hdig c (List.mem_of_mem_drop hc)) d hd
    · unfold exponent at hd
      rcases List.mem_cons.1 hd with rfl | hd
      · decide +kernel
      · rcases List.mem_cons.1 hd with rfl | hd
        · split <;> decide +kernel
        · split at hd
          · rcases List.mem_cons.1 hd with rfl | hd
            · decide +kernel
            · exact isNumChar_digit (decimal_digits _ d hd)
          · exact isNumChar_digit (decimal_digits _ d hd)
  · split at hd
    · rcases List.mem_cons.1 hd with rfl | hd
      · decide +kernel
      · refine fraction_chars (Digits.append ?_ hdig) d hd
        intro c hc; rw [List.mem_replicate] at hc; rw [hc.2]; decide +kernel
    · rw [List.mem_append] at hd
      rcases hd with hd | hd
      · exact hn d (List.mem_of_mem_take hd)
      · exact fraction_chars (fun c hc => hdig c (List.mem_of_mem_drop hc)) d hd

theorem format_like (q : ℚ) : NumberLike (formatDouble q) := by
  unfold formatDouble
  by_cases hq : q = 0
  · rw [if_pos hq]; exact ⟨'0', [], rfl, Or.inr (by decide +kernel), by simp⟩
  · rw [if_neg hq]
    obtain ⟨h1, h2, -⟩ := tenDigits_spec hq
    by_cases hneg : q < 0
    · rw [if_pos hneg]
      exact ⟨'-', _, rfl, Or.inl rfl, layout_chars _ _⟩
    · rw [if_neg hneg, List.nil_append]
      obtain ⟨c, t, hct, hc⟩ := layout_head h1 h2 (tenDigits q).2
      have := layout_chars (tenDigits q).1 (tenDigits q).2
      rw [hct] at this ⊢
      exact ⟨c, t, rfl, Or.inr hc, fun d hd => this d (by simp [hd])⟩

end QuESo.Json
