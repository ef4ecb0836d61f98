import Verif.Model.GridIndexer
import Verif.Spec.Grid
import Mathlib.Tactic.Linarith
import Mathlib.Tactic.Ring

namespace QuESo.Grid
open Spec

theorem V3.ext' {α} {a b : V3 α} (h1 : a.x = b.x) (h2 : a.y = b.y) (h3 : a.z = b.z) : a = b := by
  cases a; cases b; simp_all

theorem toMat_toVec (n v : V3 Nat) (h : InGrid n v) : toMat n (toVec n v) = v := by
  obtain ⟨hx, hy, hz⟩ := h
  have hn : 0 < n.x := by omega
  have hlt : v.y * n.x + v.x < n.x * n.y := by
    have : v.y * n.x + n.x ≤ n.y * n.x := by
      have := Nat.mul_le_mul_right n.x (Nat.succ_le_of_lt hy)
      simpa [Nat.succ_mul] using this
    have h2 : n.x * n.y = n.y * n.x := Nat.mul_comm _ _
    omega
  have e : toVec n v = (v.y * n.x + v.x) + (n.x * n.y) * v.z := by
    unfold toVec; ring
  have hp : toVec n v % (n.x * n.y) = v.y * n.x + v.x := by
    rw [e, Nat.add_mul_mod_self_left, Nat.mod_eq_of_lt hlt]
  have hpos : 0 < n.x * n.y := by omega
  have hq : toVec n v / (n.x * n.y) = v.z := by
    rw [e, Nat.add_mul_div_left _ _ hpos, Nat.div_eq_of_lt hlt, Nat.zero_add]
  unfold toMat
  simp only [hp, hq]
  apply V3.ext'
  · simp only []
    rw [Nat.add_comm, Nat.add_mul_mod_self_right, Nat.mod_eq_of_lt hx]
  · simp only []
    rw [Nat.add_comm, Nat.add_mul_div_right _ _ hn, Nat.div_eq_of_lt hx, Nat.zero_add]
  · rfl

theorem pos_of_lt_num {n : V3 Nat} {i : Nat} (h : i < numElements n) :
    0 < n.x ∧ 0 < n.y ∧ 0 < n.z := by
  unfold numElements at h
  refine ⟨?_, ?_, ?_⟩ <;> (apply Nat.pos_of_ne_zero; intro h0; rw [h0] at h; simp at h)

theorem toMat_inGrid (n : V3 Nat) (i : Nat) (h : i < numElements n) : InGrid n (toMat n i) := by
  obtain ⟨h1, h2, h3⟩ := pos_of_lt_num h
  have hpos : 0 < n.x * n.y := Nat.mul_pos h1 h2
  refine ⟨?_, ?_, ?_⟩
  · exact Nat.mod_lt _ h1
  · exact Nat.div_lt_of_lt_mul (Nat.mod_lt _ hpos)
  · exact Nat.div_lt_of_lt_mul h

theorem toVec_toMat (n : V3 Nat) (i : Nat) : toVec n (toMat n i) = i := by
  unfold toVec toMat
  simp only []
  have h1 := Nat.div_add_mod i (n.x * n.y)
  have h2 := Nat.div_add_mod (i % (n.x * n.y)) n.x
  calc _ = (n.x * n.y) * (i / (n.x * n.y)) + (n.x * (i % (n.x * n.y) / n.x) + i % (n.x * n.y) % n.x) := by ring
    _ = i := by rw [h2, h1]

theorem toVec_lt (n v : V3 Nat) (h : InGrid n v) : toVec n v < numElements n := by
  obtain ⟨hx, hy, hz⟩ := h
  unfold toVec numElements
  have a1 : (v.y + 1) * n.x ≤ n.y * n.x := Nat.mul_le_mul_right _ hy
  have a2 : (v.z + 1) * (n.y * n.x) ≤ n.z * (n.y * n.x) := Nat.mul_le_mul_right _ hz
  have e : n.x * n.y * n.z = n.z * (n.y * n.x) := by ring
  rw [e]
  have e1 : (v.y + 1) * n.x = v.y * n.x + n.x := by ring
  have e2 : (v.z + 1) * (n.y * n.x) = v.z * (n.y * n.x) + n.y * n.x := by ring
  omega

theorem toVec_inj {n v w : V3 Nat} (hv : InGrid n v) (hw : InGrid n w)
    (h : toVec n v = toVec n w) : v = w := by
  rw [← toMat_toVec n v hv, h, toMat_toVec n w hw]

theorem inGrid_of_inPart {n : V3 Nat} {p : Partition} (hp : ValidPart n p) {v : V3 Nat}
    (h : InPart p v) : InGrid n v := by
  obtain ⟨⟨_, _⟩, ⟨_, _⟩, ⟨_, _⟩⟩ := hp
  obtain ⟨⟨_, _⟩, ⟨_, _⟩, ⟨_, _⟩⟩ := h
  exact ⟨by omega, by omega, by omega⟩

/-! ### Steps on triples -/

/-- The step on index triples; proof device only. -/
def stepV (p : Partition) (d : Dir) (v : V3 Nat) : V3 Nat × IndexInfo :=
  match d with
  | .xf =>
    if v.x < p.second.x then (⟨v.x + 1, v.y, v.z⟩, .middle)
    else if v.y < p.second.y then (⟨p.first.x, v.y + 1, v.z⟩, .localEnd)
    else if v.z < p.second.z then (⟨p.first.x, p.first.y, v.z + 1⟩, .localEnd)
    else (v, .globalEnd)
  | .yf =>
    if v.y < p.second.y then (⟨v.x, v.y + 1, v.z⟩, .middle)
    else if v.x < p.second.x then (⟨v.x + 1, p.first.y, v.z⟩, .localEnd)
    else if v.z < p.second.z then (⟨p.first.x, p.first.y, v.z + 1⟩, .localEnd)
    else (v, .globalEnd)
  | .zf =>
    if v.z < p.second.z then (⟨v.x, v.y, v.z + 1⟩, .middle)
    else if v.x < p.second.x then (⟨v.x + 1, v.y, p.first.z⟩, .localEnd)
    else if v.y < p.second.y then (⟨p.first.x, v.y + 1, p.first.z⟩, .localEnd)
    else (v, .globalEnd)
  | .xb =>
    if v.x > p.first.x then (⟨v.x - 1, v.y, v.z⟩, .middle)
    else if v.y > p.first.y then (⟨p.second.x, v.y - 1, v.z⟩, .localEnd)
    else if v.z > p.first.z then (⟨p.second.x, p.second.y, v.z - 1⟩, .localEnd)
    else (v, .globalEnd)
  | .yb =>
    if v.y > p.first.y then (⟨v.x, v.y - 1, v.z⟩, .middle)
    else if v.x > p.first.x then (⟨v.x - 1, p.second.y, v.z⟩, .localEnd)
    else if v.z > p.first.z then (⟨p.second.x, p.second.y, v.z - 1⟩, .localEnd)
    else (v, .globalEnd)
  | .zb =>
    if v.z > p.first.z then (⟨v.x, v.y, v.z - 1⟩, .middle)
    else if v.x > p.first.x then (⟨v.x - 1, v.y, p.second.z⟩, .localEnd)
    else if v.y > p.first.y then (⟨p.second.x, v.y - 1, p.second.z⟩, .localEnd)
    else (v, .globalEnd)

theorem next_eq (n : V3 Nat) (p : Partition) (d : Dir) (i : Nat) :
    next n p d i = (toVec n (stepV p d (toMat n i)).1, (stepV p d (toMat n i)).2) := by
  have e : i = toVec n (toMat n i) := (toVec_toMat n i).symm
  cases d <;> simp only [next, nextX, nextY, nextZ, prevX, prevY, prevZ, stepV] <;>
    (split
     · rfl
     · split
       · rfl
       · split
         · rfl
         · simp only [toVec_toMat])

theorem stepV_inPart {n : V3 Nat} {p : Partition} (hp : ValidPart n p) (d : Dir) {v : V3 Nat}
    (h : InPart p v) : InPart p (stepV p d v).1 := by
  obtain ⟨⟨_, _⟩, ⟨_, _⟩, ⟨_, _⟩⟩ := hp
  obtain ⟨⟨_, _⟩, ⟨_, _⟩, ⟨_, _⟩⟩ := h
  cases d <;> simp only [stepV] <;>
    (split
     · (refine ⟨⟨?_, ?_⟩, ⟨?_, ?_⟩, ⟨?_, ?_⟩⟩ <;> (simp only []; omega))
     · split
       · (refine ⟨⟨?_, ?_⟩, ⟨?_, ?_⟩, ⟨?_, ?_⟩⟩ <;> (simp only []; omega))
       · split
         · (refine ⟨⟨?_, ?_⟩, ⟨?_, ?_⟩, ⟨?_, ?_⟩⟩ <;> (simp only []; omega))
         · (refine ⟨⟨?_, ?_⟩, ⟨?_, ?_⟩, ⟨?_, ?_⟩⟩ <;> (simp only []; omega)))

theorem stepV_middle_iff {p : Partition} (d : Dir) {v : V3 Nat} (h : InPart p v) :
    (stepV p d v).2 = .middle ↔ ∃ w, InPart p w ∧ Neighbour d v w := by
  obtain ⟨⟨_, _⟩, ⟨_, _⟩, ⟨_, _⟩⟩ := h
  constructor
  · intro hm
    refine ⟨(stepV p d v).1, ?_⟩
    revert hm
    cases d <;> simp only [stepV] <;>
      (split
       · intro _
         refine ⟨⟨⟨?_, ?_⟩, ⟨?_, ?_⟩, ⟨?_, ?_⟩⟩, ?_, ?_, ?_⟩ <;> (simp only [] <;> omega)
       · split
         · intro h; cases h
         · split <;> (intro h; cases h))
  · rintro ⟨w, ⟨⟨_, _⟩, ⟨_, _⟩, ⟨_, _⟩⟩, hn⟩
    cases d <;> simp only [Neighbour] at hn <;> obtain ⟨_, _, _⟩ := hn <;> simp only [stepV] <;>
      (rw [if_pos (by omega)])

theorem stepV_middle {p : Partition} (d : Dir) {v : V3 Nat}
    (hm : (stepV p d v).2 = .middle) : Neighbour d v (stepV p d v).1 := by
  revert hm
  cases d <;> simp only [stepV] <;>
    (split
     · intro _
       refine ⟨?_, ?_, ?_⟩ <;> (simp only [] <;> omega)
     · split
       · intro h; cases h
       · split <;> (intro h; cases h))

theorem Neighbour.unique {d : Dir} {v w w' : V3 Nat} (h : Neighbour d v w) (h' : Neighbour d v w') :
    w = w' := by
  cases d <;> simp only [Neighbour] at h h' <;> (apply V3.ext' <;> omega)

theorem stepV_reverse {n : V3 Nat} {p : Partition} (hp : ValidPart n p) (d : Dir) {v : V3 Nat}
    (h : InPart p v) (hg : (stepV p d v).2 ≠ .globalEnd) :
    stepV p (reverse d) (stepV p d v).1 = (v, (stepV p d v).2) := by
  obtain ⟨⟨_, _⟩, ⟨_, _⟩, ⟨_, _⟩⟩ := hp
  obtain ⟨⟨_, _⟩, ⟨_, _⟩, ⟨_, _⟩⟩ := h
  obtain ⟨a, b, c⟩ := v
  revert hg
  simp only at *
  cases d <;> simp only [stepV, reverse] <;>
    (split
     · intro _
       simp only []
       rw [if_pos (by omega)]; simp <;> omega
     · split
       · intro _
         simp only []
         rw [if_neg (by omega), if_pos (by omega)]; simp; omega
       · split
         · intro _
           simp only []
           rw [if_neg (by omega), if_neg (by omega), if_pos (by omega)]; simp; omega
         · intro h; exact absurd rfl h)

theorem isEnd_iff {p : Partition} (n : V3 Nat) (d : Dir) (i : Nat) (h : InPart p (toMat n i)) :
    isEnd n p d i = true ↔ (stepV p d (toMat n i)).2 ≠ .middle := by
  obtain ⟨⟨_, _⟩, ⟨_, _⟩, ⟨_, _⟩⟩ := h
  cases d <;> simp only [isEnd, stepV, beq_iff_eq] <;>
    (split
     · simp; omega
     · split
       · simp; omega
       · split
         · simp; omega
         · simp; omega)

/-! ### The rank of a cell in the walk order of a direction -/

/-- widths -/
def wx (p : Partition) : Nat := p.second.x - p.first.x + 1
def wy (p : Partition) : Nat := p.second.y - p.first.y + 1
def wz (p : Partition) : Nat := p.second.z - p.first.z + 1
def total (p : Partition) : Nat := wx p * wy p * wz p

def rank (p : Partition) (d : Dir) (v : V3 Nat) : Nat :=
  match d with
  | .xf => ((v.z - p.first.z) * wy p + (v.y - p.first.y)) * wx p + (v.x - p.first.x)
  | .xb => ((p.second.z - v.z) * wy p + (p.second.y - v.y)) * wx p + (p.second.x - v.x)
  | .yf => ((v.z - p.first.z) * wx p + (v.x - p.first.x)) * wy p + (v.y - p.first.y)
  | .yb => ((p.second.z - v.z) * wx p + (p.second.x - v.x)) * wy p + (p.second.y - v.y)
  | .zf => ((v.y - p.first.y) * wx p + (v.x - p.first.x)) * wz p + (v.z - p.first.z)
  | .zb => ((p.second.y - v.y) * wx p + (p.second.x - v.x)) * wz p + (p.second.z - v.z)

/-- Abstract mixed radix facts. -/
theorem radix_lt {a b c A B C : Nat} (ha : a < A) (hb : b < B) (hc : c < C) :
    (a * B + b) * C + c < A * B * C := by
  have h1 : a * B + b < A * B := by
    have : (a + 1) * B ≤ A * B := Nat.mul_le_mul_right _ ha
    have e : (a + 1) * B = a * B + B := by ring
    omega
  have : (a * B + b + 1) * C ≤ A * B * C := Nat.mul_le_mul_right _ h1
  have e : (a * B + b + 1) * C = (a * B + b) * C + C := by ring
  omega

theorem radix_inj2 {b c b' c' C : Nat} (hc : c < C) (hc' : c' < C)
    (h : b * C + c = b' * C + c') : b = b' ∧ c = c' := by
  have hC : 0 < C := by omega
  have e1 : (b * C + c) / C = b := by
    rw [Nat.add_comm, Nat.add_mul_div_right _ _ hC, Nat.div_eq_of_lt hc, Nat.zero_add]
  have e2 : (b' * C + c') / C = b' := by
    rw [Nat.add_comm, Nat.add_mul_div_right _ _ hC, Nat.div_eq_of_lt hc', Nat.zero_add]
  have : b = b' := by rw [← e1, h, e2]
  subst this
  exact ⟨rfl, by omega⟩

theorem radix_inj {a b c a' b' c' B C : Nat} (hb : b < B) (hc : c < C) (hb' : b' < B) (hc' : c' < C)
    (h : (a * B + b) * C + c = (a' * B + b') * C + c') : a = a' ∧ b = b' ∧ c = c' := by
  obtain ⟨h1, h2⟩ := radix_inj2 hc hc' h
  obtain ⟨h3, h4⟩ := radix_inj2 hb hb' h1
  exact ⟨h3, h4, h2⟩

theorem rank_lt {n : V3 Nat} {p : Partition} (hp : ValidPart n p) (d : Dir) {v : V3 Nat}
    (h : InPart p v) : rank p d v < total p := by
  obtain ⟨⟨_, _⟩, ⟨_, _⟩, ⟨_, _⟩⟩ := hp
  obtain ⟨⟨_, _⟩, ⟨_, _⟩, ⟨_, _⟩⟩ := h
  have e1 : total p = wz p * wy p * wx p := by unfold total; ring
  have e2 : total p = wz p * wx p * wy p := by unfold total; ring
  have e3 : total p = wy p * wx p * wz p := by unfold total; ring
  cases d <;> simp only [rank]
  · rw [e1]; apply radix_lt <;> simp only [wx, wy, wz] <;> omega
  · rw [e1]; apply radix_lt <;> simp only [wx, wy, wz] <;> omega
  · rw [e2]; apply radix_lt <;> simp only [wx, wy, wz] <;> omega
  · rw [e2]; apply radix_lt <;> simp only [wx, wy, wz] <;> omega
  · rw [e3]; apply radix_lt <;> simp only [wx, wy, wz] <;> omega
  · rw [e3]; apply radix_lt <;> simp only [wx, wy, wz] <;> omega

theorem rank_inj {p : Partition} (d : Dir) {v w : V3 Nat}
    (h : InPart p v) (hw : InPart p w) (e : rank p d v = rank p d w) : v = w := by
  obtain ⟨⟨_, _⟩, ⟨_, _⟩, ⟨_, _⟩⟩ := h
  obtain ⟨⟨_, _⟩, ⟨_, _⟩, ⟨_, _⟩⟩ := hw
  cases d <;> simp only [rank] at e <;>
    (have hh := radix_inj (by simp only [wx, wy]; omega) (by simp only [wx, wy, wz]; omega)
        (by simp only [wx, wy]; omega) (by simp only [wx, wy, wz]; omega) e
     obtain ⟨_, _, _⟩ := hh
     apply V3.ext' <;> omega)

theorem stepV_rank {n : V3 Nat} {p : Partition} (hp : ValidPart n p) (d : Dir) {v : V3 Nat}
    (h : InPart p v) (hg : (stepV p d v).2 ≠ .globalEnd) :
    rank p d (stepV p d v).1 = rank p d v + 1 := by
  obtain ⟨⟨_, _⟩, ⟨_, _⟩, ⟨_, _⟩⟩ := hp
  obtain ⟨⟨_, _⟩, ⟨_, _⟩, ⟨_, _⟩⟩ := h
  -- abstract the three carries
  have carry1 : ∀ a C m : Nat, m + 1 = C → a * C + m + 1 = (a + 1) * C + 0 := by
    intro a C m h; subst h; ring
  have carry2 : ∀ a B C k m : Nat, k + 1 = B → m + 1 = C →
      (a * B + k) * C + m + 1 = ((a + 1) * B + 0) * C + 0 := by
    intro a B C k m h1 h2; subst h1; subst h2; ring
  revert hg
  cases d <;> simp only [stepV, rank]
  · split
    · intro _; simp only []; omega
    · split
      · intro _; simp only []
        have : v.x - p.first.x + 1 = wx p := by unfold wx; omega
        rw [carry1 _ _ _ this]; congr 1
        · congr 1; omega
        · omega
      · split
        · intro _; simp only []
          have h1 : v.x - p.first.x + 1 = wx p := by unfold wx; omega
          have h2 : v.y - p.first.y + 1 = wy p := by unfold wy; omega
          rw [carry2 _ _ _ _ _ h2 h1]
          have e : v.z + 1 - p.first.z = v.z - p.first.z + 1 := by omega
          rw [e]; simp
        · intro h; exact absurd rfl h
  · split
    · intro _; simp only []; omega
    · split
      · intro _; simp only []
        have : p.second.x - v.x + 1 = wx p := by unfold wx; omega
        rw [carry1 _ _ _ this]; congr 1
        · congr 1; omega
        · omega
      · split
        · intro _; simp only []
          have h1 : p.second.x - v.x + 1 = wx p := by unfold wx; omega
          have h2 : p.second.y - v.y + 1 = wy p := by unfold wy; omega
          rw [carry2 _ _ _ _ _ h2 h1]
          have e : p.second.z - (v.z - 1) = p.second.z - v.z + 1 := by omega
          rw [e]; simp
        · intro h; exact absurd rfl h
  · split
    · intro _; simp only []; omega
    · split
      · intro _; simp only []
        have : v.y - p.first.y + 1 = wy p := by unfold wy; omega
        rw [carry1 _ _ _ this]; congr 1
        · congr 1; omega
        · omega
      · split
        · intro _; simp only []
          have h1 : v.x - p.first.x + 1 = wx p := by unfold wx; omega
          have h2 : v.y - p.first.y + 1 = wy p := by unfold wy; omega
          rw [carry2 _ _ _ _ _ h1 h2]
          have e : v.z + 1 - p.first.z = v.z - p.first.z + 1 := by omega
          rw [e]; simp
        · intro h; exact absurd rfl h
  · split
    · intro _; simp only []; omega
    · split
      · intro _; simp only []
        have : p.second.y - v.y + 1 = wy p := by unfold wy; omega
        rw [carry1 _ _ _ this]; congr 1
        · congr 1; omega
        · omega
      · split
        · intro _; simp only []
          have h1 : p.second.x - v.x + 1 = wx p := by unfold wx; omega
          have h2 : p.second.y - v.y + 1 = wy p := by unfold wy; omega
          rw [carry2 _ _ _ _ _ h1 h2]
          have e : p.second.z - (v.z - 1) = p.second.z - v.z + 1 := by omega
          rw [e]; simp
        · intro h; exact absurd rfl h
  · split
    · intro _; simp only []; omega
    · split
      · intro _; simp only []
        have : v.z - p.first.z + 1 = wz p := by unfold wz; omega
        rw [carry1 _ _ _ this]; congr 1
        · congr 1; omega
        · omega
      · split
        · intro _; simp only []
          have h1 : v.x - p.first.x + 1 = wx p := by unfold wx; omega
          have h2 : v.z - p.first.z + 1 = wz p := by unfold wz; omega
          rw [carry2 _ _ _ _ _ h1 h2]
          have e : v.y + 1 - p.first.y = v.y - p.first.y + 1 := by omega
          rw [e]; simp
        · intro h; exact absurd rfl h
  · split
    · intro _; simp only []; omega
    · split
      · intro _; simp only []
        have : p.second.z - v.z + 1 = wz p := by unfold wz; omega
        rw [carry1 _ _ _ this]; congr 1
        · congr 1; omega
        · omega
      · split
        · intro _; simp only []
          have h1 : p.second.x - v.x + 1 = wx p := by unfold wx; omega
          have h2 : p.second.z - v.z + 1 = wz p := by unfold wz; omega
          rw [carry2 _ _ _ _ _ h1 h2]
          have e : p.second.y - (v.y - 1) = p.second.y - v.y + 1 := by omega
          rw [e]; simp
        · intro h; exact absurd rfl h

/-- A global end is only reported at the cell with the last rank. -/
theorem stepV_global {n : V3 Nat} {p : Partition} (hp : ValidPart n p) (d : Dir) {v : V3 Nat}
    (h : InPart p v) (hg : (stepV p d v).2 = .globalEnd) :
    (stepV p d v).1 = v ∧ v = startCorner p (reverse d) := by
  obtain ⟨⟨_, _⟩, ⟨_, _⟩, ⟨_, _⟩⟩ := hp
  obtain ⟨⟨_, _⟩, ⟨_, _⟩, ⟨_, _⟩⟩ := h
  revert hg
  cases d <;> simp only [stepV, reverse, startCorner] <;>
    (split
     · intro h; cases h
     · split
       · intro h; cases h
       · split
         · intro h; cases h
         · intro _; exact ⟨rfl, by apply V3.ext' <;> omega⟩)

theorem rank_start {n : V3 Nat} {p : Partition} (_hp : ValidPart n p) (d : Dir) :
    rank p d (startCorner p d) = 0 := by
  cases d <;> simp [rank, startCorner]

theorem rank_last {n : V3 Nat} {p : Partition} (_hp : ValidPart n p) (d : Dir) :
    rank p d (startCorner p (reverse d)) + 1 = total p := by
  have h : ∀ a b c : Nat, (a * (b+1) + b) * (c+1) + c + 1 = (c+1) * (b+1) * (a+1) := by
    intro a b c; ring
  have h2 : ∀ a b c : Nat, (a * (b+1) + b) * (c+1) + c + 1 = (b+1) * (c+1) * (a+1) := by
    intro a b c; ring
  have h3 : ∀ a b c : Nat, (a * (b+1) + b) * (c+1) + c + 1 = (b+1) * (a+1) * (c+1) := by
    intro a b c; ring
  cases d <;> simp only [rank, startCorner, reverse, total, wx, wy, wz]
  · exact h _ _ _
  · exact h _ _ _
  · exact h2 _ _ _
  · exact h2 _ _ _
  · exact h3 _ _ _
  · exact h3 _ _ _

theorem start_inPart {n : V3 Nat} {p : Partition} (hp : ValidPart n p) (d : Dir) :
    InPart p (startCorner p d) := by
  obtain ⟨⟨_, _⟩, ⟨_, _⟩, ⟨_, _⟩⟩ := hp
  cases d <;> simp only [startCorner] <;>
    exact ⟨⟨by omega, by omega⟩, ⟨by omega, by omega⟩, ⟨by omega, by omega⟩⟩

end QuESo.Grid
