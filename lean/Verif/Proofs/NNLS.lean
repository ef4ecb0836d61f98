import Verif.Model.NNLS
import Verif.Spec.NNLS
import Mathlib.Algebra.BigOperators.Field
import Mathlib.Algebra.BigOperators.Intervals
import Mathlib.Algebra.BigOperators.Ring.Finset
import Mathlib.Algebra.Order.BigOperators.Group.Finset
import Mathlib.Algebra.Order.BigOperators.Ring.Finset
import Mathlib.Tactic.Linarith
import Mathlib.Tactic.Ring
import Mathlib.Tactic.FieldSimp
import Mathlib.Tactic.LinearCombination
import Mathlib.Tactic.Positivity

/-!
# Proofs about the solver of non-negative least-squares problems
-/
namespace QuESo.NNLS
open Finset

/-! ## Loops -/

theorem mem_upto {lo hi i : Nat} : i ∈ upto lo hi ↔ lo ≤ i ∧ i ≤ hi := by
  unfold upto
  rw [List.mem_range'_1]
  omega

theorem nodup_upto (lo hi : Nat) : (upto lo hi).Nodup := List.nodup_range'

theorem upto_toFinset (lo hi : Nat) : (upto lo hi).toFinset = Icc lo hi := by
  ext i
  rw [List.mem_toFinset, mem_upto, mem_Icc]

theorem put_self {α : Type*} (f : Nat → α) (i : Nat) (v : α) : put f i v i = v := if_pos rfl

theorem put_ne {α : Type*} (f : Nat → α) {i k : Nat} (v : α) (h : k ≠ i) : put f i v k = f k := if_neg h

/-- A loop of assignments to different places, where the new value depends on the old value and on the value at a place
that is not changed. -/
theorem fold_put {α : Type*} (g : Nat → Nat) (p : Nat) (F : α → Nat → α → α) (L : List Nat) (hn : (L.map g).Nodup)
    (hp : p ∉ L.map g) (f : Nat → α) :
    (∀ i ∈ L, L.foldl (fun f i => put f (g i) (F (f p) i (f (g i)))) f (g i) = F (f p) i (f (g i))) ∧
    ∀ k, k ∉ L.map g → L.foldl (fun f i => put f (g i) (F (f p) i (f (g i)))) f k = f k := by
  induction L generalizing f with
  | nil => simp
  | cons a L ih =>
    simp only [List.map_cons, List.nodup_cons, List.mem_cons, not_or] at hn hp
    obtain ⟨h1, h2⟩ := ih hn.2 hp.2 (put f (g a) (F (f p) a (f (g a))))
    have e : put f (g a) (F (f p) a (f (g a))) p = f p := put_ne _ _ hp.1
    simp only [List.foldl_cons]
    refine ⟨fun i hi => ?_, fun k hk => ?_⟩
    · rcases List.mem_cons.1 hi with rfl | hi
      · rw [h2 _ hn.1, put_self]
      · rw [h1 i hi, e, put_ne]
        rintro he
        exact hn.1 (he ▸ List.mem_map_of_mem hi)
    · simp only [List.map_cons, List.mem_cons, not_or] at hk
      rw [h2 k hk.2, put_ne _ _ hk.1]

/-- The same where no other place is read. -/
theorem fold_put' {α : Type*} (g : Nat → Nat) (F : Nat → α → α) (L : List Nat) (hn : (L.map g).Nodup) (f : Nat → α) :
    (∀ i ∈ L, L.foldl (fun f i => put f (g i) (F i (f (g i)))) f (g i) = F i (f (g i))) ∧
    ∀ k, k ∉ L.map g → L.foldl (fun f i => put f (g i) (F i (f (g i)))) f k = f k := by
  induction L generalizing f with
  | nil => simp
  | cons a L ih =>
    simp only [List.map_cons, List.nodup_cons] at hn
    obtain ⟨h1, h2⟩ := ih hn.2 (put f (g a) (F a (f (g a))))
    simp only [List.foldl_cons]
    refine ⟨fun i hi => ?_, fun k hk => ?_⟩
    · rcases List.mem_cons.1 hi with rfl | hi
      · rw [h2 _ hn.1, put_self]
      · rw [h1 i hi, put_ne]
        rintro he
        exact hn.1 (he ▸ List.mem_map_of_mem hi)
    · simp only [List.map_cons, List.mem_cons, not_or] at hk
      rw [h2 k hk.2, put_ne _ _ hk.1]

/-- A loop over consecutive places. -/
theorem fold_upto {α : Type*} (F : Nat → α → α) (lo hi : Nat) (f : Nat → α) (k : Nat) :
    (upto lo hi).foldl (fun f i => put f i (F i (f i))) f k = if lo ≤ k ∧ k ≤ hi then F k (f k) else f k := by
  obtain ⟨h1, h2⟩ := fold_put' id F (upto lo hi) (by simpa using nodup_upto lo hi) f
  simp only [id] at h1 h2
  split_ifs with h
  · exact h1 k (mem_upto.2 h)
  · exact h2 k (by simpa [mem_upto] using h)

/-- A loop over consecutive places that reads another place. -/
theorem fold_upto_read {α : Type*} (p : Nat) (F : α → Nat → α → α) (lo hi : Nat) (hp : ¬ (lo ≤ p ∧ p ≤ hi)) (f : Nat → α) (k : Nat) :
    (upto lo hi).foldl (fun f i => put f i (F (f p) i (f i))) f k = if lo ≤ k ∧ k ≤ hi then F (f p) k (f k) else f k := by
  obtain ⟨h1, h2⟩ := fold_put id p F (upto lo hi) (by simpa using nodup_upto lo hi) (by simpa [mem_upto] using hp) f
  simp only [id] at h1 h2
  split_ifs with h
  · exact h1 k (mem_upto.2 h)
  · exact h2 k (by simpa [mem_upto] using h)

variable {K : Type*} [Field K] [LinearOrder K] [IsStrictOrderedRing K]

omit [LinearOrder K] [IsStrictOrderedRing K] in
theorem addUp_eq (s : K) (lo hi : Nat) (f : Nat → K) : addUp s lo hi f = s + ∑ i ∈ Icc lo hi, f i := by
  unfold addUp
  rw [← upto_toFinset, List.sum_toFinset f (nodup_upto lo hi)]
  generalize upto lo hi = L
  induction L generalizing s with
  | nil => simp
  | cons a L ih => rw [List.foldl_cons, ih, List.map_cons, List.sum_cons]; ring

omit [Field K] [LinearOrder K] [IsStrictOrderedRing K] in
theorem copy_eq (m : Nat) (src dst : Nat → K) (k : Nat) : copy m src dst k = if 1 ≤ k ∧ k ≤ m then src k else dst k :=
  fold_upto (fun i _ => src i) 1 m dst k

/-! ## Inner products -/

/-- The inner product of two vectors with `m` entries. -/
def ip (m : Nat) (f g : Nat → K) : K := ∑ l ∈ Icc 1 m, f l * g l

omit [LinearOrder K] [IsStrictOrderedRing K] in
theorem ip_congr {m : Nat} {f f' g g' : Nat → K} (hf : ∀ l, 1 ≤ l → l ≤ m → f l = f' l) (hg : ∀ l, 1 ≤ l → l ≤ m → g l = g' l) :
    ip m f g = ip m f' g' := by
  refine sum_congr rfl fun l hl => ?_
  rw [mem_Icc] at hl
  rw [hf l hl.1 hl.2, hg l hl.1 hl.2]

omit [LinearOrder K] [IsStrictOrderedRing K] in
theorem ip_comm (m : Nat) (f g : Nat → K) : ip m f g = ip m g f := sum_congr rfl fun _ _ => mul_comm _ _

/-- Two families of vectors with the same inner products. -/
def Same (m n : Nat) (A : Nat → Nat → K) (b : Nat → K) (A' : Nat → Nat → K) (b' : Nat → K) : Prop :=
  (∀ i j, 1 ≤ i → i ≤ n → 1 ≤ j → j ≤ n → ip m (A' i) (A' j) = ip m (A i) (A j)) ∧
  (∀ i, 1 ≤ i → i ≤ n → ip m (A' i) b' = ip m (A i) b) ∧ ip m b' b' = ip m b b

omit [LinearOrder K] [IsStrictOrderedRing K] in
theorem Same.refl (m n : Nat) (A : Nat → Nat → K) (b : Nat → K) : Same m n A b A b :=
  ⟨fun _ _ _ _ _ _ => rfl, fun _ _ _ => rfl, rfl⟩

omit [LinearOrder K] [IsStrictOrderedRing K] in
theorem Same.trans {m n : Nat} {A A' A'' : Nat → Nat → K} {b b' b'' : Nat → K} (h : Same m n A b A' b') (h' : Same m n A' b' A'' b'') :
    Same m n A b A'' b'' :=
  ⟨fun i j a1 a2 a3 a4 => (h'.1 i j a1 a2 a3 a4).trans (h.1 i j a1 a2 a3 a4), fun i a1 a2 => (h'.2.1 i a1 a2).trans (h.2.1 i a1 a2),
    h'.2.2.trans h.2.2⟩

/-- A map that keeps inner products. -/
def Iso (m : Nat) (T : (Nat → K) → Nat → K) : Prop := ∀ f g, ip m (T f) (T g) = ip m f g

omit [LinearOrder K] [IsStrictOrderedRing K] in
theorem Same.of_iso {m n : Nat} {A A' : Nat → Nat → K} {b b' : Nat → K} {T : (Nat → K) → Nat → K} (hT : Iso m T)
    (hA : ∀ j, 1 ≤ j → j ≤ n → ∀ l, 1 ≤ l → l ≤ m → A' j l = T (A j) l) (hb : ∀ l, 1 ≤ l → l ≤ m → b' l = T b l) :
    Same m n A b A' b' := by
  refine ⟨fun i j a1 a2 a3 a4 => ?_, fun i a1 a2 => ?_, ?_⟩
  · rw [ip_congr (hA i a1 a2) (hA j a3 a4), hT]
  · rw [ip_congr (hA i a1 a2) hb, hT]
  · rw [ip_congr hb hb, hT]

/-! ## Reflections -/

omit [LinearOrder K] [IsStrictOrderedRing K] in
/-- A reflection keeps inner products. -/
theorem iso_reflect (m : Nat) (v : Nat → K) (β : K) (hβ : β * (2 + β * ip m v v) = 0) :
    Iso m (fun f l => f l + β * ip m f v * v l) := by
  intro f g
  have h : ∀ l, (f l + β * ip m f v * v l) * (g l + β * ip m g v * v l) =
      f l * g l + β * ip m g v * (f l * v l) + β * ip m f v * (g l * v l) + β * ip m f v * (β * ip m g v) * (v l * v l) := by
    intro l; ring
  show ∑ l ∈ Icc 1 m, _ = _
  rw [sum_congr rfl fun l _ => h l, sum_add_distrib, sum_add_distrib, sum_add_distrib, ← mul_sum, ← mul_sum, ← mul_sum]
  show ip m f g + β * ip m g v * ip m f v + β * ip m f v * ip m g v + β * ip m f v * (β * ip m g v) * ip m v v = ip m f g
  linear_combination ip m f v * ip m g v * hβ

omit [LinearOrder K] [IsStrictOrderedRing K] in
/-- Rows before, at and behind row `p`. -/
theorem sum_split {m p : Nat} (h1 : 1 ≤ p) (h2 : p ≤ m) (f : Nat → K) :
    ∑ l ∈ Icc 1 m, f l = ∑ l ∈ Icc 1 (p - 1), f l + (f p + ∑ l ∈ Icc (p + 1) m, f l) := by
  have e1 : Icc 1 m = Icc 1 (p - 1) ∪ Icc p m := by ext i; simp only [mem_union, mem_Icc]; omega
  have e2 : Icc p m = insert p (Icc (p + 1) m) := by ext i; simp only [mem_insert, mem_Icc]; omega
  rw [e1, sum_union, e2, sum_insert]
  · simp
  · rw [disjoint_left]; intro i hi; simp only [mem_Icc] at hi ⊢; omega

omit [LinearOrder K] [IsStrictOrderedRing K] in
theorem sum_from {m p : Nat} (h2 : p ≤ m) (f : Nat → K) : ∑ l ∈ Icc p m, f l = f p + ∑ l ∈ Icc (p + 1) m, f l := by
  have e2 : Icc p m = insert p (Icc (p + 1) m) := by ext i; simp only [mem_insert, mem_Icc]; omega
  rw [e2, sum_insert]
  simp

/-- What `h1` and `h2` with pivot row `p` do together: `T` is applied. -/
structure Reflects (m p : Nat) (u u' : Nat → K) (up : K) (T : (Nat → K) → Nat → K) : Prop where
  iso : Iso m T
  apply : ∀ c l, 1 ≤ l → l ≤ m → h2 p (p + 1) m u' up c l = T c l
  above : ∀ c l, l < p → T c l = c l
  fixed : ∀ c : Nat → K, (∀ l, p ≤ l → l ≤ m → c l = 0) → ∀ l, T c l = c l
  pivot : ∀ l, 1 ≤ l → l ≤ m → T u l = if l < p then u l else if l = p then u' p else 0
  others : ∀ l, l ≠ p → u' l = u l
  diag : u' p * u' p = ∑ l ∈ Icc p m, u l * u l

theorem foldl_max_ge (u : Nat → K) (L : List Nat) (c : K) :
    c ≤ L.foldl (fun cl j => if |u j| ≥ cl then |u j| else cl) c ∧
      ∀ j ∈ L, |u j| ≤ L.foldl (fun cl j => if |u j| ≥ cl then |u j| else cl) c := by
  induction L generalizing c with
  | nil => simp
  | cons a L ih =>
    rw [List.foldl_cons]
    obtain ⟨h1, h2⟩ := ih (if |u a| ≥ c then |u a| else c)
    have e1 : c ≤ if |u a| ≥ c then |u a| else c := by split_ifs with h <;> [exact h; exact le_rfl]
    have e2 : |u a| ≤ if |u a| ≥ c then |u a| else c := by split_ifs with h <;> [exact le_rfl; exact (not_le.1 h).le]
    refine ⟨e1.trans h1, fun j hj => ?_⟩
    rcases List.mem_cons.1 hj with rfl | hj
    · exact e2.trans h1
    · exact h2 j hj

theorem h_reflects {sqrt : K → K} (hs : IsSqrt sqrt) {m p : Nat} (h1p : 1 ≤ p) (hpm : p ≤ m) (u : Nat → K) (junk : K)
    (hu : ∑ l ∈ Icc p m, u l * u l ≠ 0) :
    ∃ T, Reflects m p u (h1 sqrt p (p + 1) m u junk).1 (h1 sqrt p (p + 1) m u junk).2 T := by
  by_cases hlast : p = m
  · subst hlast
    have e1 : h1 sqrt p (p + 1) p u junk = (u, junk) := if_pos (by omega)
    refine ⟨fun c => c, ?_⟩
    rw [e1]
    exact ⟨fun _ _ => rfl, fun c l _ _ => by rw [h2, if_pos (by omega)], fun _ _ _ => rfl, fun _ _ _ => rfl, fun l _ hl => by
        by_cases h : l < p
        · rw [if_pos h]
        · rw [if_neg h, if_pos (by omega), show l = p by omega], fun _ _ => rfl, by simp⟩
  · have hlt : p < m := by omega
    set S := ∑ l ∈ Icc p m, u l * u l with hS
    have hS0 : 0 ≤ S := sum_nonneg fun l _ => mul_self_nonneg _
    have hSp : 0 < S := lt_of_le_of_ne hS0 (Ne.symm hu)
    -- the maximum is positive
    obtain ⟨g1, g2⟩ := foldl_max_ge u (upto (p + 1) m) |u p|
    set cl := (upto (p + 1) m).foldl (fun cl j => if |u j| ≥ cl then |u j| else cl) |u p| with hcl
    have hclp : 0 < cl := by
      by_contra hc
      apply hu
      refine sum_eq_zero fun l hl => ?_
      rw [mem_Icc] at hl
      have : |u l| ≤ cl := by
        rcases eq_or_lt_of_le hl.1 with h | h
        · rw [← h]; exact g1
        · exact g2 l (mem_upto.2 ⟨h, hl.2⟩)
      have h0 : |u l| ≤ 0 := this.trans (not_lt.1 hc)
      rw [abs_nonpos_iff.1 h0, zero_mul]
    have hsm : addUp ((u p * (1 / cl)) * (u p * (1 / cl))) (p + 1) m (fun j => (u j * (1 / cl)) * (u j * (1 / cl))) = S / (cl * cl) := by
      rw [addUp_eq, hS, sum_from hpm, add_div, Finset.sum_div]
      congr 1
      · field_simp
      · refine sum_congr rfl fun l _ => ?_
        field_simp
    obtain ⟨q1, q2⟩ := hs (S / (cl * cl)) (by positivity)
    set r := cl * sqrt (S / (cl * cl)) with hr
    have hrr : r * r = S := by
      have : r * r = (cl * cl) * (sqrt (S / (cl * cl)) * sqrt (S / (cl * cl))) := by rw [hr]; ring
      rw [this, q2]
      field_simp
    have hr0 : 0 ≤ r := mul_nonneg hclp.le q1
    have hrp : 0 < r := lt_of_le_of_ne hr0 (by rintro h; rw [← h] at hrr; simp at hrr; exact hu hrr.symm)
    set d := if u p ≤ 0 then r else -r with hd
    have hdd : d * d = S := by rw [hd]; split_ifs <;> [exact hrr; (rw [neg_mul_neg]; exact hrr)]
    have hneg : (u p - d) * d < 0 := by
      have : u p * d ≤ 0 := by
        rw [hd]
        split_ifs with h
        · exact mul_nonpos_of_nonpos_of_nonneg h hr0
        · exact mul_nonpos_of_nonneg_of_nonpos (not_le.1 h).le (by linarith)
      have h2 : (u p - d) * d = u p * d - S := by rw [← hdd]; ring
      rw [h2]; linarith
    have e1 : h1 sqrt p (p + 1) m u junk = (put u p d, u p - d) := by
      unfold h1
      rw [if_neg (by omega)]
      simp only [← hcl]
      rw [if_neg (not_le.2 hclp), hsm]
    rw [e1]
    simp only
    have hdn : d ≠ 0 := by rintro h; rw [h] at hneg; simp at hneg
    have hupn : u p - d ≠ 0 := by rintro h; rw [h] at hneg; simp at hneg
    -- the vector of the reflection
    let v : Nat → K := fun l => if l < p then 0 else if l = p then u p - d else u l
    have hv : ∀ c : Nat → K, ip m c v = c p * (u p - d) + ∑ l ∈ Icc (p + 1) m, c l * u l := by
      intro c
      unfold ip
      rw [sum_split h1p hpm]
      rw [sum_eq_zero (s := Icc 1 (p - 1)) fun l hl => by
        rw [mem_Icc] at hl
        show c l * v l = 0
        rw [show v l = 0 from if_pos (by omega), mul_zero], zero_add]
      congr 1
      · show c p * v p = _
        rw [show v p = u p - d from (if_neg (by omega)).trans (if_pos rfl)]
      · refine sum_congr rfl fun l hl => ?_
        rw [mem_Icc] at hl
        show c l * v l = _
        rw [show v l = u l from (if_neg (by omega)).trans (if_neg (by omega))]
    have hSs : S = u p * u p + ∑ l ∈ Icc (p + 1) m, u l * u l := by rw [hS, sum_from hpm]
    have hvv : ip m v v = -2 * ((u p - d) * d) := by
      rw [hv v]
      have : ∑ l ∈ Icc (p + 1) m, v l * u l = ∑ l ∈ Icc (p + 1) m, u l * u l := sum_congr rfl fun l hl => by
        rw [mem_Icc] at hl
        rw [show v l = u l from (if_neg (by omega)).trans (if_neg (by omega))]
      rw [this, show v p = u p - d from (if_neg (by omega)).trans (if_pos rfl)]
      have h3 : ∑ l ∈ Icc (p + 1) m, u l * u l = d * d - u p * u p := by rw [hdd, hSs]; ring
      rw [h3]; ring
    have huv : ip m u v = -((u p - d) * d) := by
      rw [hv u]
      have h3 : ∑ l ∈ Icc (p + 1) m, u l * u l = d * d - u p * u p := by rw [hdd, hSs]; ring
      rw [h3]; ring
    have hfac : (u p - d) * d ≠ 0 := hneg.ne
    refine ⟨fun f l => f l + 1 / ((u p - d) * d) * ip m f v * v l, iso_reflect m v _ ?_, ?_, ?_, ?_, ?_, ?_, ?_⟩
    · rw [hvv]; field_simp; ring
    · intro c l hl1 hlm
      have hsum : addUp (c p * (u p - d)) (p + 1) m (fun i => c i * put u p d i) = ip m c v := by
        rw [addUp_eq, hv c]
        congr 1
        refine sum_congr rfl fun i hi => ?_
        rw [mem_Icc] at hi
        rw [put_ne _ _ (by omega)]
      unfold h2
      rw [if_neg (by omega), put_self, if_neg (not_le.2 (abs_pos.2 hdn))]
      simp only
      rw [if_neg (not_le.2 hneg), hsum]
      by_cases h0 : ip m c v = 0
      · rw [if_neg (not_not.2 h0), h0, mul_zero, zero_mul, add_zero]
      · rw [if_pos h0, fold_upto (fun i y => y + ip m c v * (1 / ((u p - d) * d)) * put u p d i)]
        by_cases h : l < p
        · rw [if_neg (by omega), put_ne _ _ (by omega), show v l = 0 from if_pos h, mul_zero, add_zero]
        · by_cases hp : l = p
          · subst hp
            rw [if_neg (by omega), put_self, show v l = u l - d from (if_neg (by omega)).trans (if_pos rfl)]
            ring
          · rw [if_pos ⟨by omega, hlm⟩, put_ne _ _ hp, put_ne _ _ hp, show v l = u l from (if_neg h).trans (if_neg hp)]
            ring
    · intro c l h
      show c l + _ * v l = _
      rw [show v l = 0 from if_pos h, mul_zero, add_zero]
    · intro c hc l
      have : ip m c v = 0 := by
        rw [hv c, hc p le_rfl hpm, zero_mul, zero_add]
        refine sum_eq_zero fun i hi => ?_
        rw [mem_Icc] at hi
        rw [hc i (by omega) hi.2, zero_mul]
      show c l + _ * ip m c v * v l = _
      rw [this, mul_zero, zero_mul, add_zero]
    · intro l hl1 hlm
      show u l + 1 / ((u p - d) * d) * ip m u v * v l = _
      have h1 : 1 / ((u p - d) * d) * ip m u v = -1 := by rw [huv]; field_simp
      rw [h1]
      by_cases h : l < p
      · rw [if_pos h, show v l = 0 from if_pos h, mul_zero, add_zero]
      · rw [if_neg h]
        by_cases hp : l = p
        · rw [if_pos hp, show v l = u p - d from (if_neg h).trans (if_pos hp), put_self, hp]; ring
        · rw [if_neg hp, show v l = u l from (if_neg h).trans (if_neg hp)]; ring
    · intro l hl
      exact put_ne _ _ hl
    · rw [put_self, hdd]

/-- The entry at the pivot row of a vector that is reflected. -/
theorem Reflects.row {m p : Nat} {u u' : Nat → K} {up : K} {T : (Nat → K) → Nat → K} (h : Reflects m p u u' up T) (h1p : 1 ≤ p) (hpm : p ≤ m)
    (c : Nat → K) : T c p * u' p = ∑ l ∈ Icc p m, c l * u l := by
  have h1 := h.iso c u
  unfold ip at h1
  rw [sum_split h1p hpm, sum_split h1p hpm, ← sum_from hpm (fun l => c l * u l)] at h1
  have e1 : ∑ l ∈ Icc 1 (p - 1), T c l * T u l = ∑ l ∈ Icc 1 (p - 1), c l * u l := sum_congr rfl fun l hl => by
    rw [mem_Icc] at hl
    rw [h.above c l (by omega), h.above u l (by omega)]
  have e2 : ∑ l ∈ Icc (p + 1) m, T c l * T u l = 0 := sum_eq_zero fun l hl => by
    rw [mem_Icc] at hl
    rw [h.pivot l (by omega) hl.2, if_neg (by omega), if_neg (by omega), mul_zero]
  rw [e1, e2, h.pivot p h1p hpm, if_neg (by omega), if_pos rfl] at h1
  linear_combination h1

/-! ## Rotations -/

theorem g1_spec {sqrt : K → K} (hs : IsSqrt sqrt) (a b : K) :
    (g1 sqrt a b).1 * (g1 sqrt a b).1 + (g1 sqrt a b).2.1 * (g1 sqrt a b).2.1 = 1 ∧
    (g1 sqrt a b).1 * a + (g1 sqrt a b).2.1 * b = (g1 sqrt a b).2.2 ∧ -(g1 sqrt a b).2.1 * a + (g1 sqrt a b).1 * b = 0 ∧
    (g1 sqrt a b).2.2 * (g1 sqrt a b).2.2 = a * a + b * b := by
  have key : ∀ (p q : K), p ≠ 0 → ∃ y, sqrt ((q / p) * (q / p) + 1) = y ∧ 0 < y ∧ y * y * (p * p) = p * p + q * q := by
    intro p q hp
    obtain ⟨q1, q2⟩ := hs ((q / p) * (q / p) + 1) (add_nonneg (mul_self_nonneg _) zero_le_one)
    refine ⟨_, rfl, lt_of_le_of_ne q1 ?_, ?_⟩
    · rintro h
      rw [← h, zero_mul] at q2
      have : 0 ≤ q / p * (q / p) := mul_self_nonneg _
      linarith
    · rw [q2]; field_simp; ring
  have sign : ∀ (y p : K), 0 < y → dSign (1 / y) p * |p| = p / y ∧ dSign (1 / y) p * dSign (1 / y) p * (y * y) = 1 ∧
      dSign (1 / y) p * p = |p| / y := by
    intro y p hy
    unfold dSign
    simp only
    rw [if_pos (by positivity : (0 : K) ≤ 1 / y)]
    split_ifs with h
    · rw [abs_of_nonneg h]; refine ⟨by ring, by field_simp, by ring⟩
    · rw [abs_of_neg (not_le.1 h)]; refine ⟨by ring, by field_simp, by ring⟩
  unfold g1
  split_ifs with h h'
  · have ha : a ≠ 0 := by rintro rfl; rw [abs_zero] at h; exact absurd h (not_lt.2 (abs_nonneg b))
    obtain ⟨y, e, hy, h1⟩ := key a b ha
    simp only [e]
    obtain ⟨s1, s2, s3⟩ := sign y a hy
    set c := dSign (1 / y) a
    have hyy : y * y ≠ 0 := by positivity
    have hc2 : c * c = 1 / (y * y) := by rw [eq_div_iff hyy]; exact s2
    have hab : |a| * |a| = a * a := abs_mul_abs_self a
    refine ⟨?_, ?_, ?_, ?_⟩
    · have : c * c + c * (b / a) * (c * (b / a)) = c * c * ((a * a + b * b) / (a * a)) := by field_simp
      rw [this, hc2, ← h1]; field_simp
    · have : c * a + c * (b / a) * b = c * a * ((a * a + b * b) / (a * a)) := by field_simp
      rw [this, s3, ← h1]; field_simp
    · field_simp; ring
    · have : |a| * y * (|a| * y) = y * y * (|a| * |a|) := by ring
      rw [this, hab, h1]
  · obtain ⟨y, e, hy, h1⟩ := key b a h'
    simp only [e]
    obtain ⟨s1, s2, s3⟩ := sign y b hy
    set c := dSign (1 / y) b
    have hyy : y * y ≠ 0 := by positivity
    have hc2 : c * c = 1 / (y * y) := by rw [eq_div_iff hyy]; exact s2
    have hab : |b| * |b| = b * b := abs_mul_abs_self b
    refine ⟨?_, ?_, ?_, ?_⟩
    · have : c * (a / b) * (c * (a / b)) + c * c = c * c * ((b * b + a * a) / (b * b)) := by field_simp; ring
      rw [this, hc2, ← h1]; field_simp
    · have : c * (a / b) * a + c * b = c * b * ((b * b + a * a) / (b * b)) := by field_simp; ring
      rw [this, s3, ← h1]; field_simp
    · field_simp; ring
    · have : |b| * y * (|b| * y) = y * y * (|b| * |b|) := by ring
      rw [this, hab, h1]; ring
  · have hb : b = 0 := not_not.1 h'
    subst hb
    have ha : a = 0 := by
      rw [abs_zero] at h
      exact abs_nonpos_iff.1 (not_lt.1 h)
    subst ha
    simp

omit [LinearOrder K] [IsStrictOrderedRing K] in
theorem g2_other (cc ss : K) {j l : Nat} (c : Nat → K) (h1 : l ≠ j) (h2 : l ≠ j - 1) : g2 cc ss j c l = c l := by
  unfold g2
  rw [put_ne _ _ h1, put_ne _ _ h2]

omit [LinearOrder K] [IsStrictOrderedRing K] in
theorem iso_rotate {m j : Nat} (h1 : 2 ≤ j) (h2 : j ≤ m) (cc ss : K) (h : cc * cc + ss * ss = 1) : Iso m (g2 cc ss j) := by
  intro f g
  unfold ip
  have e : Icc 1 m = insert (j - 1) (insert j ((Icc 1 m).filter fun l => l ≠ j ∧ l ≠ j - 1)) := by
    ext i; simp only [mem_insert, mem_filter, mem_Icc]; omega
  have n1 : j - 1 ∉ insert j ((Icc 1 m).filter fun l => l ≠ j ∧ l ≠ j - 1) := by
    simp only [mem_insert, mem_filter, mem_Icc]; omega
  have n2 : j ∉ (Icc 1 m).filter fun l => l ≠ j ∧ l ≠ j - 1 := by
    simp only [mem_filter, mem_Icc]; omega
  rw [e, sum_insert n1, sum_insert n2, sum_insert n1, sum_insert n2]
  have r : ∑ l ∈ (Icc 1 m).filter (fun l => l ≠ j ∧ l ≠ j - 1), g2 cc ss j f l * g2 cc ss j g l =
      ∑ l ∈ (Icc 1 m).filter (fun l => l ≠ j ∧ l ≠ j - 1), f l * g l := sum_congr rfl fun l hl => by
    rw [mem_filter] at hl
    rw [g2_other cc ss f hl.2.1 hl.2.2, g2_other cc ss g hl.2.1 hl.2.2]
  rw [r]
  have v1 : ∀ c : Nat → K, g2 cc ss j c (j - 1) = cc * c (j - 1) + ss * c j := fun c => by
    unfold g2; rw [put_ne _ _ (by omega), put_self]
  have v2 : ∀ c : Nat → K, g2 cc ss j c j = -ss * c (j - 1) + cc * c j := fun c => by unfold g2; rw [put_self]
  rw [v1, v1, v2, v2]
  linear_combination (f (j - 1) * g (j - 1) + f j * g j) * h

end QuESo.NNLS
