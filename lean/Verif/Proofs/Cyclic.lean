import Mathlib.Data.List.Basic
import Mathlib.Tactic.Ring
import Mathlib.Tactic.Linarith

/-!
# Counting the changes of a label around a cyclic list

Combinatorics of polygon clipping: if every convex label changes at most twice around the polygon, the clipped
polygon has at most one vertex more.
-/
namespace QuESo.Cyc
variable {α : Type _}

/-- 1 if the two labels differ. -/
def dd (p q : Bool) : Nat := if p = q then 0 else 1

theorem dd_self (p : Bool) : dd p p = 0 := by simp [dd]
theorem dd_tri (p q r : Bool) : dd p r ≤ dd p q + dd q r := by cases p <;> cases q <;> cases r <;> decide

/-- Number of changes of the label along `a :: l`. -/
def chg (f : α → Bool) : α → List α → Nat
  | _, [] => 0
  | a, b :: r => dd (f a) (f b) + chg f b r

/-- The last element of `a :: l`. -/
def lastD : α → List α → α
  | a, [] => a
  | _, b :: r => lastD b r

theorem lastD_append (a : α) (l r : List α) : lastD a (l ++ r) = lastD (lastD a l) r := by
  induction l generalizing a with
  | nil => rfl
  | cons b l ih => exact ih b

theorem lastD_congr {a a' : α} {l : List α} (h : l ≠ []) : lastD a l = lastD a' l := by
  cases l with
  | nil => exact absurd rfl h
  | cons b l => rfl

theorem lastD_getLast? {a : α} {l : List α} : l.getLast? = some a → lastD a l = a ∧ ∀ z, lastD z l = a := by
  intro h
  cases l with
  | nil => simp at h
  | cons b l =>
    have : ∀ (b : α) (l : List α), (b :: l).getLast? = some (lastD b l) := by
      intro b l
      induction l generalizing b with
      | nil => rfl
      | cons c l ih => rw [List.getLast?_cons_cons, ih c]; rfl
    rw [this] at h
    have hb : lastD b l = a := by simpa using h
    exact ⟨hb, fun _ => hb⟩

theorem getLast?_eq (b : α) (l : List α) : (b :: l).getLast? = some (lastD b l) := by
  induction l generalizing b with
  | nil => rfl
  | cons c l ih => rw [List.getLast?_cons_cons, ih c]; rfl

theorem lastD_mem (a : α) (l : List α) : lastD a l = a ∨ lastD a l ∈ l := by
  induction l generalizing a with
  | nil => exact Or.inl rfl
  | cons b l ih => rcases ih b with h | h
                   · right; simp only [lastD]; rw [h]; exact List.mem_cons_self
                   · right; exact List.mem_cons_of_mem _ h

theorem chg_append (f : α → Bool) (a : α) (l r : List α) : chg f a (l ++ r) = chg f a l + chg f (lastD a l) r := by
  induction l generalizing a with
  | nil => simp [chg, lastD]
  | cons b l ih => simp only [List.cons_append, chg, lastD, ih]; omega

/-- Number of changes of the label around the closed polygon. -/
def cyc (f : α → Bool) : List α → Nat
  | [] => 0
  | b :: l => chg f (lastD b l) (b :: l)

theorem cyc_three (f : α → Bool) (a b c : α) : cyc f [a, b, c] ≤ 2 := by
  simp only [cyc, chg, lastD]
  cases f a <;> cases f b <;> cases f c <;> decide

/-- The changes and the labels of the two ends have the same parity. -/
theorem chg_parity (f : α → Bool) (a : α) (l : List α) : (chg f a l + dd (f a) (f (lastD a l))) % 2 = 0 := by
  induction l generalizing a with
  | nil => simp [chg, lastD, dd]
  | cons b l ih =>
    have := ih b
    simp only [chg, lastD]
    generalize chg f b l = n at *
    generalize f (lastD b l) = z at *
    revert this
    cases f a <;> cases f b <;> cases z <;> simp only [dd] <;> simp <;> omega

theorem cyc_even (f : α → Bool) (l : List α) : cyc f l % 2 = 0 := by
  cases l with
  | nil => rfl
  | cons b l =>
    have := chg_parity f (lastD b l) (b :: l)
    have h2 : lastD (lastD b l) (b :: l) = lastD b l := rfl
    rw [h2, dd_self] at this
    simpa [cyc] using this

theorem chg_zero (f : α → Bool) (a : α) (l : List α) (h : chg f a l = 0) : ∀ b ∈ l, f b = f a := by
  induction l generalizing a with
  | nil => intro b hb; simp at hb
  | cons c l ih =>
    simp only [chg] at h
    have h1 : dd (f a) (f c) = 0 := by omega
    have h2 : chg f c l = 0 := by omega
    have h3 : f a = f c := by
      unfold dd at h1; split at h1 <;> [assumption; simp at h1]
    intro b hb
    rcases List.mem_cons.1 hb with rfl | hb
    · exact h3.symm
    · rw [ih c h2 b hb, h3]

/-- A label that is not constant changes at least twice. -/
theorem two_le_cyc (f : α → Bool) (l : List α) {a b : α} (ha : a ∈ l) (hb : b ∈ l) (hf : f a ≠ f b) :
    2 ≤ cyc f l := by
  cases l with
  | nil => simp at ha
  | cons c l =>
    have he := cyc_even f (c :: l)
    by_contra hlt
    have h0 : cyc f (c :: l) = 0 := by omega
    have := chg_zero f _ _ h0
    exact hf (by rw [this a ha, this b hb])

theorem chg_false (f : α → Bool) (a : α) (l : List α) (ha : f a = false) (h : ∀ b ∈ l, f b = false) : chg f a l = 0 := by
  induction l generalizing a with
  | nil => rfl
  | cons b l ih =>
    have hb := h b List.mem_cons_self
    simp only [chg, ha, hb, dd_self, Nat.zero_add]
    exact ih b hb (fun c hc => h c (List.mem_cons_of_mem _ hc))

theorem chg_congr (f g : α → Bool) (a : α) (l : List α) (ha : f a = g a) (h : ∀ b ∈ l, f b = g b) :
    chg f a l = chg g a l := by
  induction l generalizing a with
  | nil => rfl
  | cons b l ih =>
    have hb := h b List.mem_cons_self
    simp only [chg, ha, hb]
    rw [ih b hb (fun c hc => h c (List.mem_cons_of_mem _ hc))]

/-! ## Emission -/

/-- What a clip emits for one edge: `B` are the vertices that are kept, `x` is the entry point into the rest,
`y` the exit point from it. -/
def edge (B : α → Bool) (x y : α → α → α) (a b : α) : List α :=
  if B a then (if B b then [b] else [x a b]) else (if B b then [y a b, b] else [])

/-- What a clip emits along `a :: l`. -/
def emits (B : α → Bool) (x y : α → α → α) : α → List α → List α
  | _, [] => []
  | a, b :: r => edge B x y a b ++ emits B x y b r

/-- What a clip emits around the closed polygon. -/
def clip (B : α → Bool) (x y : α → α → α) : List α → List α
  | [] => []
  | b :: l => emits B x y (lastD b l) (b :: l)

variable {B : α → Bool} {x y : α → α → α}

theorem emits_length (a : α) (l : List α) : (emits B x y a l).length = (l.filter B).length + chg B a l := by
  induction l generalizing a with
  | nil => rfl
  | cons b l ih =>
    simp only [emits, List.length_append, ih, chg, edge, dd]
    cases h : B a <;> cases h' : B b <;> simp [h'] <;> omega

theorem clip_length (l : List α) : (clip B x y l).length = (l.filter B).length + cyc B l := by
  cases l with
  | nil => rfl
  | cons b l => exact emits_length _ _

theorem clip_all (l : List α) (h : ∀ b ∈ l, B b = true) : clip B x y l = l := by
  have aux : ∀ (a : α) (l : List α), B a = true → (∀ b ∈ l, B b = true) → emits B x y a l = l := by
    intro a l
    induction l generalizing a with
    | nil => intros; rfl
    | cons b l ih =>
      intro ha hl
      have hb := hl b List.mem_cons_self
      simp only [emits, edge, ha, hb, if_true, List.singleton_append]
      rw [ih b hb (fun c hc => hl c (List.mem_cons_of_mem _ hc))]
  cases l with
  | nil => rfl
  | cons b l =>
    refine aux _ _ ?_ h
    rcases lastD_mem b l with e | e
    · rw [e]; exact h b List.mem_cons_self
    · exact h _ (List.mem_cons_of_mem _ e)

theorem clip_none (l : List α) (h : ∀ b ∈ l, B b = false) : clip B x y l = [] := by
  have hc : cyc B l = 0 := by
    cases l with
    | nil => rfl
    | cons b l =>
      refine chg_false _ _ _ ?_ h
      rcases lastD_mem b l with e | e
      · rw [e]; exact h b List.mem_cons_self
      · exact h _ (List.mem_cons_of_mem _ e)
  have hl := clip_length (B := B) (x := x) (y := y) l
  rw [hc, List.filter_eq_nil_iff.2 (fun b hb => by simp [h b hb])] at hl
  exact List.length_eq_zero_iff.1 hl

/-- A clipped polygon has at most one vertex more. -/
theorem clip_length_le (l : List α) (h : cyc B l ≤ 2) : (clip B x y l).length ≤ l.length + 1 := by
  rw [clip_length]
  by_cases hn : ∃ a ∈ l, B a = false
  · obtain ⟨a, ha, hB⟩ := hn
    have : (l.filter B).length < l.length := by
      rcases Nat.lt_or_ge (l.filter B).length l.length with h | h
      · exact h
      · exfalso
        have e : l.filter B = l := List.filter_sublist.eq_of_length_le h
        rw [← e] at ha
        simp [hB] at ha
    omega
  · have hall : ∀ b ∈ l, B b = true := by
      intro b hb; cases hB : B b
      · exact absurd ⟨b, hb, hB⟩ hn
      · rfl
    have := clip_length (B := B) (x := x) (y := y) l
    rw [clip_all l hall] at this
    omega

/-- A clipped polygon with three or more vertices has no vertices or three or more. -/
theorem clip_length_ge (l : List α) (h3 : 3 ≤ l.length) :
    (clip B x y l).length = 0 ∨ 3 ≤ (clip B x y l).length := by
  by_cases hn : ∃ a ∈ l, B a = false
  · by_cases hb : ∃ b ∈ l, B b = true
    · obtain ⟨a, ha, hA⟩ := hn
      obtain ⟨b, hb, hB⟩ := hb
      right
      rw [clip_length]
      have h2 := two_le_cyc B l ha hb (by simp [hA, hB])
      have h1 : 0 < (l.filter B).length := List.length_pos_of_mem (List.mem_filter.2 ⟨hb, hB⟩)
      omega
    · left
      rw [clip_none l (fun b hb' => by cases hB : B b; rfl; exact absurd ⟨b, hb', hB⟩ hb)]
      rfl
  · right
    rw [clip_all l (fun b hb => by cases hB : B b; exact absurd ⟨b, hb, hB⟩ hn; rfl)]
    exact h3

/-- A label for which entry and exit points lie "between" the ends of their edge. -/
def Between (B : α → Bool) (x y : α → α → α) (f : α → Bool) : Prop :=
  (∀ a b, B a = true → B b = false → dd (f a) (f (x a b)) + dd (f (x a b)) (f b) = dd (f a) (f b)) ∧
  (∀ a b, B a = false → B b = true → dd (f a) (f (y a b)) + dd (f (y a b)) (f b) = dd (f a) (f b))

theorem emits_chg {f : α → Bool} (hf : Between B x y f) (l : α) (a : α) (r : List α) (hl : B a = true → l = a) :
    chg f l (emits B x y a r) + dd (f (lastD l (emits B x y a r))) (f (lastD a r)) ≤ dd (f l) (f a) + chg f a r := by
  induction r generalizing l a with
  | nil => simp [emits, chg, lastD]
  | cons b r ih =>
    simp only [emits, lastD]
    cases hA : B a <;> cases hB : B b
    · have e : edge B x y a b = [] := by simp [edge, hA, hB]
      rw [e]
      have := ih l b (by simp [hB])
      have h3 := dd_tri (f l) (f a) (f b)
      simp only [List.nil_append, chg]
      omega
    · have e : edge B x y a b = [y a b, b] := by simp [edge, hA, hB]
      rw [e]
      have := ih b b (fun _ => rfl)
      have h2 := hf.2 a b hA hB
      have h3 := dd_tri (f l) (f a) (f (y a b))
      have h4 := dd_self (f b)
      simp only [List.cons_append, List.nil_append, chg, lastD]
      omega
    · have e : edge B x y a b = [x a b] := by simp [edge, hA, hB]
      rw [e]
      have := ih (x a b) b (by simp [hB])
      have h2 := hf.1 a b hA hB
      obtain rfl := hl hA
      have h4 := dd_self (f l)
      simp only [List.cons_append, List.nil_append, chg, lastD]
      omega
    · have e : edge B x y a b = [b] := by simp [edge, hA, hB]
      rw [e]
      have := ih b b (fun _ => rfl)
      obtain rfl := hl hA
      have h4 := dd_self (f l)
      have h5 := dd_self (f b)
      simp only [List.cons_append, List.nil_append, chg, lastD]
      omega

theorem emits_last {a : α} {r : List α} (l : α) (hr : r ≠ []) (h : B (lastD a r) = true) :
    lastD l (emits B x y a r) = lastD a r := by
  induction r generalizing l a with
  | nil => exact absurd rfl hr
  | cons b r ih =>
    simp only [emits, lastD_append, lastD] at h ⊢
    by_cases hr' : r = []
    · subst hr'
      simp only [lastD] at h ⊢
      simp only [emits, lastD, edge, h, if_true]
      cases B a <;> rfl
    · exact ih _ hr' h

/-- Clipping does not add changes of a label. -/
theorem clip_cyc {f : α → Bool} (hf : Between B x y f) (l : List α) : cyc f (clip B x y l) ≤ cyc f l := by
  cases l with
  | nil => simp [clip, cyc]
  | cons b l =>
    simp only [clip]
    generalize ha : lastD b l = a
    cases hout : emits B x y a (b :: l) with
    | nil => simp [cyc]
    | cons o os =>
      have hz : lastD (lastD o os) (o :: os) = lastD o os := rfl
      have e1 : cyc f (b :: l) = chg f a (b :: l) := by simp only [cyc, ha]
      rw [e1]
      show chg f (lastD o os) (o :: os) ≤ _
      have key := emits_chg hf (lastD o os) a (b :: l) (by
        intro hA
        have hlast : lastD a (b :: l) = a := by simp only [lastD, ha]
        have := emits_last (B := B) (x := x) (y := y) (a := a) (r := b :: l) a (by simp) (by rw [hlast]; exact hA)
        rw [hout, hlast] at this
        exact this)
      rw [hout, hz] at key
      have hlast : lastD a (b :: l) = a := by simp only [lastD, ha]
      rw [hlast] at key
      omega


theorem emits_flag {f : α → Bool} (l : α) (a : α) (r : List α) (hl : B a = true → l = a)
    (ha : B a = true → f a = false) (hf : ∀ b ∈ r, B b = true → f b = false) :
    chg f l (emits B x y a r) ≤ chg B a r + (if B a = false ∧ f l = false then 1 else 0) := by
  induction r generalizing l a with
  | nil => simp [emits, chg]
  | cons b r ih =>
    have hb := hf b List.mem_cons_self
    have hr : ∀ c ∈ r, B c = true → f c = false := fun c hc => hf c (List.mem_cons_of_mem _ hc)
    simp only [emits, chg]
    cases hA : B a <;> cases hB : B b
    · have e : edge B x y a b = [] := by simp [edge, hA, hB]
      rw [e]
      have := ih l b (by simp [hB]) hb hr
      simp only [hB, dd_self, List.nil_append, Nat.zero_add] at this ⊢
      exact this
    · have e : edge B x y a b = [y a b, b] := by simp [edge, hA, hB]
      rw [e]
      have := ih b b (fun _ => rfl) hb hr
      simp only [List.cons_append, List.nil_append, chg, hb hB, hB] at this ⊢
      generalize chg f b (emits B x y b r) = n at *
      generalize chg B b r = m at *
      cases f l <;> cases f (y a b) <;> simp [dd] at this ⊢ <;> omega
    · have e : edge B x y a b = [x a b] := by simp [edge, hA, hB]
      rw [e]
      have := ih (x a b) b (by simp [hB]) hb hr
      obtain rfl := hl hA
      simp only [List.cons_append, List.nil_append, chg, ha hA, hB] at this ⊢
      generalize chg f (x l b) (emits B x y b r) = n at *
      generalize chg B b r = m at *
      cases hfx : f (x l b) <;> simp [hfx, dd] at this ⊢ <;> omega
    · have e : edge B x y a b = [b] := by simp [edge, hA, hB]
      rw [e]
      have := ih b b (fun _ => rfl) hb hr
      obtain rfl := hl hA
      simp only [List.cons_append, List.nil_append, chg, ha hA, hb hB, hB] at this ⊢
      simp [dd] at this ⊢
      omega

/-- A label that is false on kept vertices (such as a flag that only this clip sets): it changes at most as often
as the label of the kept vertices. -/
theorem clip_flag {f : α → Bool} (l : List α) (hf : ∀ b ∈ l, B b = true → f b = false) :
    cyc f (clip B x y l) ≤ cyc B l := by
  cases l with
  | nil => simp [clip, cyc]
  | cons b l =>
    have he := cyc_even f (clip B x y (b :: l))
    have he' := cyc_even B (b :: l)
    suffices h : cyc f (clip B x y (b :: l)) ≤ cyc B (b :: l) + 1 by omega
    simp only [clip]
    have hmem : lastD b l ∈ b :: l := by
      rcases lastD_mem b l with e | e
      · rw [e]; exact List.mem_cons_self
      · exact List.mem_cons_of_mem _ e
    generalize ha : lastD b l = a at hmem
    cases hout : emits B x y a (b :: l) with
    | nil => simp [cyc]
    | cons o os =>
      have e1 : cyc B (b :: l) = chg B a (b :: l) := by simp only [cyc, ha]
      rw [e1]
      show chg f (lastD o os) (o :: os) ≤ _
      have key := emits_flag (B := B) (x := x) (y := y) (f := f) (lastD o os) a (b :: l) (by
        intro hA
        have hlast : lastD a (b :: l) = a := by simp only [lastD, ha]
        have := emits_last (B := B) (x := x) (y := y) (a := a) (r := b :: l) a (by simp) (by rw [hlast]; exact hA)
        rw [hout, hlast] at this
        exact this) (hf a hmem) hf
      rw [hout] at key
      split at key <;> omega

/-- If the points at which the label of the kept vertices changes have label false, the changes of a label are
those on the kept part and those on the other part. -/
theorem emits_split {f : α → Bool} (hf : Between B x y f)
    (hx : ∀ a b, B a = true → B b = false → B (x a b) = false)
    (hy : ∀ a b, B a = false → B b = true → B (y a b) = false) (a : α) (r : List α)
    (h : ∀ o ∈ emits B x y a r, B o = false → f o = false) :
    chg f a r = chg (fun v => f v && B v) a r + chg (fun v => f v && !B v) a r := by
  induction r generalizing a with
  | nil => rfl
  | cons b r ih =>
    have ihb := ih b (fun o ho => h o (by simp only [emits]; exact List.mem_append_right _ ho))
    have hedge : ∀ o ∈ edge B x y a b, B o = false → f o = false :=
      fun o ho => h o (by simp only [emits]; exact List.mem_append_left _ ho)
    simp only [chg, ihb]
    cases hA : B a <;> cases hB : B b
    · simp [dd]; omega
    · have e : edge B x y a b = [y a b, b] := by simp [edge, hA, hB]
      have hz := hedge (y a b) (by rw [e]; exact List.mem_cons_self) (hy a b hA hB)
      have := hf.2 a b hA hB
      rw [hz] at this
      rw [← this]
      simp; omega
    · have e : edge B x y a b = [x a b] := by simp [edge, hA, hB]
      have hz := hedge (x a b) (by rw [e]; exact List.mem_cons_self) (hx a b hA hB)
      have := hf.1 a b hA hB
      rw [hz] at this
      rw [← this]
      simp; omega
    · simp [dd]; omega

theorem clip_split {f : α → Bool} (hf : Between B x y f)
    (hx : ∀ a b, B a = true → B b = false → B (x a b) = false)
    (hy : ∀ a b, B a = false → B b = true → B (y a b) = false) (l : List α)
    (h : ∀ o ∈ clip B x y l, B o = false → f o = false) :
    cyc f l = cyc (fun v => f v && B v) l + cyc (fun v => f v && !B v) l := by
  cases l with
  | nil => rfl
  | cons b l => exact emits_split hf hx hy _ _ h

/-- If a label changes at most twice and is false at all cut points, it cannot be true both at a kept vertex
and at a vertex that is cut off. -/
theorem clip_arc {f : α → Bool} (hf : Between B x y f)
    (hx : ∀ a b, B a = true → B b = false → B (x a b) = false)
    (hy : ∀ a b, B a = false → B b = true → B (y a b) = false) (l : List α)
    (h : ∀ o ∈ clip B x y l, B o = false → f o = false) (h2 : cyc f l ≤ 2) {b n : α} (hb : b ∈ l) (hn : n ∈ l)
    (hB : B b = true) (hN : B n = false) : ¬ (f b = true ∧ f n = true) := by
  rintro ⟨fb, fn⟩
  have := clip_split hf hx hy l h
  have h1 := two_le_cyc (fun v => f v && B v) l hb hn (by simp [fb, hB, hN])
  have h3 := two_le_cyc (fun v => f v && !B v) l hb hn (by simp [fn, hB, hN])
  omega

/-- Kept vertices are emitted. -/
theorem clip_keeps {l : List α} {b : α} (hb : b ∈ l) (hB : B b = true) : b ∈ clip B x y l := by
  have aux : ∀ (a : α) (l : List α), b ∈ l → b ∈ emits B x y a l := by
    intro a l
    induction l generalizing a with
    | nil => intro h; simp at h
    | cons c l ih =>
      intro h
      simp only [emits]
      rcases List.mem_cons.1 h with rfl | h
      · refine List.mem_append_left _ ?_
        simp only [edge, hB, if_true]
        cases B a <;> simp
      · exact List.mem_append_right _ (ih _ h)
  cases l with
  | nil => simp at hb
  | cons c l => exact aux _ _ hb

/-- Every emitted vertex is a kept one, or an entry or exit point of an edge. -/
theorem clip_mem {l : List α} {o : α} (ho : o ∈ clip B x y l) :
    (o ∈ l ∧ B o = true) ∨ ∃ a ∈ l, ∃ b ∈ l, (B a = true ∧ B b = false ∧ o = x a b) ∨ (B a = false ∧ B b = true ∧ o = y a b) := by
  have aux : ∀ (a : α) (r : List α), o ∈ emits B x y a r → (o ∈ r ∧ B o = true) ∨ ∃ a' ∈ a :: r, ∃ b ∈ r,
      (B a' = true ∧ B b = false ∧ o = x a' b) ∨ (B a' = false ∧ B b = true ∧ o = y a' b) := by
    intro a r
    induction r generalizing a with
    | nil => intro h; simp [emits] at h
    | cons c r ih =>
      intro h
      simp only [emits] at h
      rcases List.mem_append.1 h with h | h
      · simp only [edge] at h
        cases hA : B a <;> cases hC : B c <;> simp only [hA, hC, if_true, if_false, Bool.false_eq_true] at h
        · simp at h
        · simp only [List.mem_cons, List.not_mem_nil, or_false] at h
          rcases h with rfl | rfl
          · exact Or.inr ⟨a, List.mem_cons_self, c, List.mem_cons_self, Or.inr ⟨hA, hC, rfl⟩⟩
          · exact Or.inl ⟨List.mem_cons_self, hC⟩
        · simp only [List.mem_cons, List.not_mem_nil, or_false] at h
          exact Or.inr ⟨a, List.mem_cons_self, c, List.mem_cons_self, Or.inl ⟨hA, hC, h⟩⟩
        · simp only [List.mem_cons, List.not_mem_nil, or_false] at h
          subst h
          exact Or.inl ⟨List.mem_cons_self, hC⟩
      · rcases ih c h with ⟨h1, h2⟩ | ⟨a', ha', b, hb, h⟩
        · exact Or.inl ⟨List.mem_cons_of_mem _ h1, h2⟩
        · exact Or.inr ⟨a', List.mem_cons_of_mem _ ha', b, List.mem_cons_of_mem _ hb, h⟩
  cases l with
  | nil => simp [clip] at ho
  | cons b l =>
    rcases aux _ _ ho with h | ⟨a', ha', h⟩
    · exact Or.inl h
    · refine Or.inr ⟨a', ?_, h⟩
      rcases List.mem_cons.1 ha' with rfl | h'
      · rcases lastD_mem b l with e | e
        · rw [e]; exact List.mem_cons_self
        · exact List.mem_cons_of_mem _ e
      · exact h'

/-- If all cut points carry a flag, and a cut point only carries it when the end of its edge on the other side
does, then the changes of "flagged and not kept" are those of "kept" and those of "flagged or kept". -/
theorem emits_flag_split {f : α → Bool} (hx : ∀ a b, B a = true → B b = false → f (x a b) = true → f b = true)
    (hy : ∀ a b, B a = false → B b = true → f (y a b) = true → f a = true) (a : α) (r : List α)
    (h : ∀ o ∈ emits B x y a r, f o = true) :
    chg (fun v => f v && !B v) a r = chg B a r + chg (fun v => f v || B v) a r := by
  induction r generalizing a with
  | nil => rfl
  | cons b r ih =>
    have ihb := ih b (fun o ho => h o (by simp only [emits]; exact List.mem_append_right _ ho))
    have hedge : ∀ o ∈ edge B x y a b, f o = true :=
      fun o ho => h o (by simp only [emits]; exact List.mem_append_left _ ho)
    simp only [chg, ihb]
    cases hA : B a <;> cases hB : B b
    · simp [dd]; omega
    · have e : edge B x y a b = [y a b, b] := by simp [edge, hA, hB]
      have hz := hy a b hA hB (hedge (y a b) (by rw [e]; exact List.mem_cons_self))
      simp [hz, dd]; omega
    · have e : edge B x y a b = [x a b] := by simp [edge, hA, hB]
      have hz := hx a b hA hB (hedge (x a b) (by rw [e]; exact List.mem_cons_self))
      simp [hz, dd]; omega
    · simp [dd]

/-- If the flagged vertices that are cut off form an arc and there is an unflagged vertex, the clipped polygon has
no vertices or an unflagged vertex. -/
theorem clip_unflagged {f : α → Bool} (hx : ∀ a b, B a = true → B b = false → f (x a b) = true → f b = true)
    (hy : ∀ a b, B a = false → B b = true → f (y a b) = true → f a = true) (l : List α)
    (h2 : cyc (fun v => f v && !B v) l ≤ 2) {u : α} (hu : u ∈ l) (hfu : f u = false) :
    clip B x y l = [] ∨ ∃ o ∈ clip B x y l, f o = false := by
  by_contra hcon
  push Not at hcon
  obtain ⟨hne, hall⟩ := hcon
  have hall : ∀ o ∈ clip B x y l, f o = true := fun o ho => by simpa using hall o ho
  have hBu : B u = false := by
    cases hB : B u
    · rfl
    · have := hall u (clip_keeps hu hB); simp [hfu] at this
  have hb : ∃ b ∈ l, B b = true := by
    by_contra hn
    push Not at hn
    exact hne (clip_none l (fun b hb => by simpa using hn b hb))
  obtain ⟨b, hb, hB⟩ := hb
  have hs : cyc (fun v => f v && !B v) l = cyc B l + cyc (fun v => f v || B v) l := by
    cases l with
    | nil => rfl
    | cons c l => exact emits_flag_split hx hy _ _ hall
  have h3 := two_le_cyc B l hb hu (by simp [hB, hBu])
  have h4 := two_le_cyc (fun v => f v || B v) l hb hu (by simp [hB, hBu, hfu])
  omega

/-- The number of cut points. -/
theorem clip_count {f : α → Bool} (l : List α) (hB : ∀ b ∈ l, f b = false)
    (hx : ∀ a b, B a = true → B b = false → f (x a b) = true) (hy : ∀ a b, B a = false → B b = true → f (y a b) = true) :
    ((clip B x y l).filter f).length = cyc B l := by
  have aux : ∀ (a : α) (r : List α), (∀ b ∈ r, f b = false) → ((emits B x y a r).filter f).length = chg B a r := by
    intro a r
    induction r generalizing a with
    | nil => intro _; rfl
    | cons b r ih =>
      intro h
      have hb := h b List.mem_cons_self
      simp only [emits, List.filter_append, List.length_append, chg, ih b (fun c hc => h c (List.mem_cons_of_mem _ hc)), edge, dd]
      cases hA : B a <;> cases hB : B b
      · simp
      · simp [hb, hy a b hA hB]
      · simp [hx a b hA hB]
      · simp [hb]
  cases l with
  | nil => rfl
  | cons b l => exact aux _ _ hB

end QuESo.Cyc
