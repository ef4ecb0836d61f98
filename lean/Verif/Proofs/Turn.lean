import Verif.Proofs.Cyclic
import Mathlib.Data.List.Sublists
import Mathlib.Data.List.Rotate

/-!
# Polygons that always turn to the same side

The corners of a polygon turn to one side if each three of them, taken in their order, are oriented non-negatively.
Clipping keeps this.
-/
namespace QuESo.Cyc
variable {α K : Type _} [Field K] [LinearOrder K] [IsStrictOrderedRing K]

/-- What an orientation of three corners satisfies. -/
structure IsOrient (o : α → α → α → K) : Prop where
  rot : ∀ a b c, o a b c = o b c a
  same : ∀ a b, o a a b = 0

/-- `x` is between `a` and `b`: on each side on which both are. -/
def Mid (o : α → α → α → K) (a b x : α) : Prop := ∀ c d, 0 ≤ o a c d → 0 ≤ o b c d → 0 ≤ o x c d

/-- Each three corners in order are oriented non-negatively. -/
def Turn (o : α → α → α → K) (l : List α) : Prop := ∀ a b c, [a, b, c].Sublist l → 0 ≤ o a b c

variable {o : α → α → α → K}

omit [IsStrictOrderedRing K] in
theorem Turn.sub {l r : List α} (h : Turn o l) (hs : r.Sublist l) : Turn o r := fun a b c hr => h a b c (hr.trans hs)

theorem IsOrient.same2 (ho : IsOrient o) (a b : α) : o a b b = 0 := by rw [ho.rot, ho.same]
theorem IsOrient.same3 (ho : IsOrient o) (a b : α) : o a b a = 0 := by rw [ho.rot, ho.rot, ho.same]

/-- A triple of a list with an element in the middle. -/
theorem triple_mid {l r : List α} {x a b c : α} (h : [a, b, c].Sublist (l ++ x :: r)) :
    [a, b, c].Sublist (l ++ r) ∨ (a = x ∧ [b, c].Sublist r) ∨ (b = x ∧ [a].Sublist l ∧ [c].Sublist r) ∨
      (c = x ∧ [a, b].Sublist l) := by
  obtain ⟨s1, s2, e, h1, h2⟩ := List.sublist_append_iff.1 h
  rcases List.sublist_cons_iff.1 h2 with h3 | ⟨s3, e3, h3⟩
  · left; rw [e]; exact h1.append h3
  · right
    subst e3
    clear h2
    match s1, e with
    | [], e => simp only [List.nil_append, List.cons.injEq] at e; left; rw [← e.2] at h3; exact ⟨e.1, h3⟩
    | [y], e =>
      simp only [List.cons_append, List.nil_append, List.cons.injEq] at e
      right; left
      obtain ⟨e1, e2, e3⟩ := e
      subst e1
      rw [← e3] at h3
      exact ⟨e2, h1, h3⟩
    | [y, z], e =>
      simp only [List.cons_append, List.nil_append, List.cons.injEq] at e
      right; right
      obtain ⟨e1, e2, e3, e4⟩ := e
      subst e1; subst e2
      exact ⟨e3, h1⟩
    | y :: z :: w :: s, e => simp at e

/-- A corner on an edge can be inserted. -/
theorem Turn.insert (ho : IsOrient o) {l r : List α} {a b x : α} (h : Turn o (l ++ a :: b :: r)) (hx : Mid o a b x) :
    Turn o (l ++ a :: x :: b :: r) := by
  intro p q s hs
  have e1 : l ++ a :: x :: b :: r = (l ++ [a]) ++ x :: (b :: r) := by simp
  have e2 : l ++ a :: b :: r = (l ++ [a]) ++ (b :: r) := by simp
  rw [e1] at hs
  rw [e2] at h
  have htm := triple_mid hs
  clear hs
  rcases htm with hs | ⟨rfl, hs⟩ | ⟨rfl, h1, h2⟩ | ⟨rfl, hs⟩
  · exact h _ _ _ hs
  · refine hx _ _ (h _ _ _ ?_) ?_
    · exact (List.sublist_append_right l [a]).append hs
    · rcases List.sublist_cons_iff.1 hs with hs' | ⟨s', e, hs'⟩
      · exact h _ _ _ (by
          have : ([b] ++ [q, s]).Sublist (b :: r) := by simpa using hs'
          exact this.trans (List.sublist_append_right _ _))
      · simp only [List.cons.injEq] at e
        rw [e.1, ho.same]
  · rw [ho.rot]
    refine hx _ _ ?_ ?_
    · rw [← ho.rot]
      rcases List.sublist_append_iff.1 h1 with ⟨s1, s2, e, k1, k2⟩
      match s1, e with
      | [], e =>
        simp only [List.nil_append] at e
        rw [← e] at k2
        simp only [List.singleton_sublist, List.mem_singleton] at k2
        rw [k2, ho.same]
      | y :: s, e =>
        simp only [List.cons_append, List.cons.injEq] at e
        have k3 : [p].Sublist l := by
          rw [e.1]; exact (List.singleton_sublist.2 (k1.subset (by simp)))
        refine h _ _ _ ?_
        have := (k3.append (List.Sublist.refl [a])).append h2
        simpa using this
    · rw [← ho.rot]
      rcases List.sublist_cons_iff.1 h2 with h3 | ⟨s', e, h3⟩
      · refine h _ _ _ ?_
        have : ([b] ++ [s]).Sublist (b :: r) := by simpa using h3
        simpa using h1.append this
      · simp only [List.cons.injEq] at e
        rw [e.1, ho.same2]
  · rw [ho.rot, ho.rot]
    refine hx _ _ ?_ ?_
    · rw [← ho.rot, ← ho.rot]
      rcases List.sublist_append_iff.1 hs with ⟨s1, s2, e, k1, k2⟩
      rcases List.sublist_cons_iff.1 k2 with k3 | ⟨s3, e3, k3⟩
      · have : s2 = [] := by simpa using k3
        subst this
        simp only [List.append_nil] at e
        refine h _ _ _ ?_
        rw [← e] at k1
        have := (k1.append (List.Sublist.refl [a])).trans (List.sublist_append_left (l ++ [a]) (b :: r))
        simpa using this
      · have : s3 = [] := by simpa using k3
        subst this
        subst e3
        match s1, e with
        | [y], e =>
          simp only [List.cons_append, List.nil_append, List.cons.injEq] at e
          rw [e.2.1, ho.same2]
        | [], e => simp at e
        | y :: z :: s, e => simp at e
    · rw [← ho.rot, ← ho.rot]
      refine h _ _ _ ?_
      have : [b].Sublist (b :: r) := by simp
      simpa using hs.append this

/-- The last corner can be repeated at the front. -/
theorem Turn.close (ho : IsOrient o) {b : α} {l : List α} (h : Turn o (b :: l)) : Turn o (lastD b l :: b :: l) := by
  intro p q s hs
  have hz : ∃ r, b :: l = r ++ [lastD b l] := by
    have := List.dropLast_append_getLast? (l := b :: l) (lastD b l) (by rw [getLast?_eq]; rfl)
    exact ⟨_, this.symm⟩
  obtain ⟨r, hr⟩ := hz
  generalize lastD b l = z at *
  rw [hr] at h hs
  rcases List.sublist_cons_iff.1 hs with hs' | ⟨s', e, hs'⟩
  · exact h _ _ _ hs'
  · simp only [List.cons.injEq] at e
    obtain ⟨e1, e2⟩ := e
    rw [← e2] at hs'
    clear hs
    subst e1
    rcases List.sublist_append_iff.1 hs' with ⟨s1, s2, e, k1, k2⟩
    rcases List.sublist_cons_iff.1 k2 with k3 | ⟨s3, e3, k3⟩
    · have : s2 = [] := by simpa using k3
      subst this
      simp only [List.append_nil] at e
      rw [ho.rot]
      refine h _ _ _ ?_
      rw [← e] at k1
      have := k1.append (List.Sublist.refl [p])
      simpa using this
    · have : s3 = [] := by simpa using k3
      subst this
      subst e3
      match s1, e with
      | [y], e =>
        simp only [List.cons_append, List.nil_append, List.cons.injEq] at e
        rw [e.2.1, ho.same3]
      | [], e => simp at e
      | y :: z :: s, e => simp at e

/-- The corners emitted along an open polygon turn to the same side. -/
theorem Turn.emits (ho : IsOrient o) {B : α → Bool} {x y : α → α → α}
    (hx : ∀ a b, B a = true → B b = false → Mid o a b (x a b)) (hy : ∀ a b, B a = false → B b = true → Mid o a b (y a b)) :
    ∀ (r pre : List α) (a : α), Turn o (pre ++ a :: r) → Turn o (pre ++ a :: emits B x y a r)
  | [], pre, a, h => by simpa [Cyc.emits] using h
  | b :: r, pre, a, h => by
    simp only [Cyc.emits, edge]
    cases hA : B a <;> cases hB : B b
    · have h1 := Turn.emits ho hx hy r (pre ++ [a]) b (by simpa using h)
      refine h1.sub ?_
      simp
    · have h1 := Turn.emits ho hx hy r (pre ++ [a, y a b]) b (by simpa using Turn.insert ho h (hy a b hA hB))
      simpa using h1
    · have h1 := Turn.emits ho hx hy r (pre ++ [a, x a b]) b (by simpa using Turn.insert ho h (hx a b hA hB))
      refine h1.sub ?_
      simp
    · have h1 := Turn.emits ho hx hy r (pre ++ [a]) b (by simpa using h)
      simpa using h1

/-- Clipping keeps the sense of turning. -/
theorem Turn.clip (ho : IsOrient o) {B : α → Bool} {x y : α → α → α}
    (hx : ∀ a b, B a = true → B b = false → Mid o a b (x a b)) (hy : ∀ a b, B a = false → B b = true → Mid o a b (y a b))
    {l : List α} (h : Turn o l) : Turn o (clip B x y l) := by
  cases l with
  | nil => exact h
  | cons b l =>
    have h1 := Turn.emits ho hx hy (b :: l) [] (lastD b l) (by simpa using Turn.close ho h)
    exact h1.sub (by simp [Cyc.clip])

/-! ## Edges -/

/-- All corners are on the non-negative side of each edge. -/
theorem Turn.edge (ho : IsOrient o) {l : List α} (h : Turn o l) {a b v : α} (he : (a, b) ∈ l.zip (l.rotate 1)) (hv : v ∈ l) :
    0 ≤ o a b v := by
  match l, he with
  | [], he => simp at he
  | c :: l, he =>
    have e : (c :: l).rotate 1 = l ++ [c] := by simp
    rw [e] at he
    obtain ⟨i, hi, hab⟩ := List.getElem_of_mem he
    simp only [List.getElem_zip, Prod.mk.injEq] at hab
    obtain ⟨ha, hb⟩ := hab
    have hi' : i < (c :: l).length := by simp at hi ⊢; omega
    obtain ⟨j, hj, hjv⟩ := List.getElem_of_mem hv
    have sub3 : ∀ i j k (hij : i < j) (hjk : j < k) (hk : k < (c :: l).length),
        0 ≤ o ((c :: l)[i]'(by omega)) ((c :: l)[j]'(by omega)) ((c :: l)[k]) := by
      intro i j k hij hjk hk
      refine h _ _ _ ?_
      have := List.map_getElem_sublist (l := c :: l) (is := [⟨i, by omega⟩, ⟨j, by omega⟩, ⟨k, hk⟩]) (by
        simp [hij, hjk]; omega)
      simpa using this
    by_cases hlast : i + 1 < (c :: l).length
    · have hb' : b = (c :: l)[i + 1] := by
        rw [← hb, List.getElem_append_left (by simpa using hlast)]
        simp
      subst hb' ha hjv
      rcases lt_trichotomy j i with hji | hji | hji
      · have := sub3 j i (i + 1) hji (by omega) hlast
        rwa [ho.rot] at this
      · subst hji
        rw [ho.same3]
      · rcases Nat.lt_or_ge (i + 1) j with hg | hg
        · exact sub3 i (i + 1) j (by omega) hg hj
        · have : j = i + 1 := by omega
          subst this
          rw [ho.same2]
    · have hb' : b = (c :: l)[0] := by
        rw [← hb, List.getElem_append_right (by simp at hlast; omega)]
        simp
      subst hb' ha hjv
      rcases Nat.eq_zero_or_pos j with hj0 | hj0
      · subst hj0
        show 0 ≤ o _ b b
        rw [ho.same2]
      · rcases Nat.lt_or_ge j i with hji | hji
        · have := sub3 0 j i hj0 hji hi'
          rw [ho.rot]
          exact this
        · have : j = i := by simp at hlast hj; omega
          subst this
          rw [ho.same3]

/-! ## Counting the changes from false to true -/

/-- Whether the label changes from false to true along the edge. -/
def up (f : α → Bool) (e : α × α) : Bool := !f e.1 && f e.2

/-- The edges along `a :: l`. -/
def chain : α → List α → List (α × α)
  | _, [] => []
  | a, b :: r => (a, b) :: chain b r

theorem chain_append (a : α) (l r : List α) : chain a (l ++ r) = chain a l ++ chain (lastD a l) r := by
  induction l generalizing a with
  | nil => rfl
  | cons b l ih => simp [chain, lastD, ih]

theorem zip_chain (a : α) (l r : List α) (c : α) (h : r = l ++ [c]) : (a :: l).zip r = chain a r := by
  subst h
  induction l generalizing a with
  | nil => rfl
  | cons b l ih => simp only [List.cons_append, List.zip_cons_cons, chain, ih b]

/-- Changes up and down differ by the labels of the ends. -/
theorem chain_up (f : α → Bool) (a : α) (l : List α) :
    2 * (chain a l).countP (up f) + (f a).toNat = chg f a l + (f (lastD a l)).toNat := by
  induction l generalizing a with
  | nil => simp [chain, chg, lastD]
  | cons b l ih =>
    have := ih b
    simp only [chain, chg, lastD, List.countP_cons]
    have hu : up f (a, b) = (!f a && f b) := rfl
    rw [hu]
    generalize (chain b l).countP (up f) = n at *
    generalize f (lastD b l) = z at *
    revert this
    cases f a <;> cases f b <;> cases z <;> simp [dd] <;> omega

/-- Half of the changes around a polygon are changes from false to true. -/
theorem cyc_up (f : α → Bool) (l : List α) : cyc f l = 2 * (l.zip (l.rotate 1)).countP (up f) := by
  cases l with
  | nil => rfl
  | cons b l =>
    have e : (b :: l).rotate 1 = l ++ [b] := by simp
    rw [e, zip_chain b l _ b rfl, chain_append, List.countP_append]
    have h := chain_up f (lastD b l) (b :: l)
    have h2 : lastD (lastD b l) (b :: l) = lastD b l := rfl
    rw [h2] at h
    have h3 : chain (lastD b l) (b :: l) = (lastD b l, b) :: chain b l := rfl
    rw [h3, List.countP_cons] at h
    have h4 : (chain (lastD b l) [b]).countP (up f) = if up f (lastD b l, b) = true then 1 else 0 := by
      simp [chain, List.countP_cons]
    rw [h4]
    simp only [cyc]
    omega

/-- At most one edge is counted: two edges at different positions are not both counted. -/
theorem pairwise_of_countP {β : Type _} (p : β → Bool) (l : List β) (h : l.countP p ≤ 1) :
    l.Pairwise fun a b => ¬ (p a = true ∧ p b = true) := by
  induction l with
  | nil => exact List.Pairwise.nil
  | cons a l ih =>
    rw [List.countP_cons] at h
    refine List.Pairwise.cons ?_ (ih (by omega))
    rintro b hb ⟨ha, hb'⟩
    rw [if_pos ha] at h
    have : 0 < l.countP p := List.countP_pos_iff.2 ⟨b, hb, hb'⟩
    omega

end QuESo.Cyc
