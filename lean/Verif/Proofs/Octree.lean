import Verif.Proofs.SingleElement
import Mathlib.Tactic.Abel
import Mathlib.Algebra.Order.BigOperators.Group.List
import Mathlib.Algebra.Order.GroupWithZero.Unbundled.Basic

namespace QuESo.Octree
open Mapping Spec
variable {K : Type _} [Field K] [LinearOrder K] [IsStrictOrderedRing K]

/-! ### Tilings -/

theorem tiles_self {b : Box K} (h : OrderedBox b) : Tiles b [b] where
  within := by
    intro c hc
    rw [List.mem_singleton.1 hc]
    exact ⟨h, ⟨le_refl _, le_refl _⟩, ⟨le_refl _, le_refl _⟩, le_refl _, le_refl _⟩
  cover := fun p hp => ⟨b, by simp, hp⟩
  unique := fun p hp => ⟨[], b, [], rfl, hp, by simp⟩
  volume := by simp

theorem SubBox.trans {a b c : Box K} (h : SubBox a b) (g : SubBox b c) : SubBox a c :=
  ⟨h.1, ⟨g.2.1.1.trans h.2.1.1, h.2.1.2.trans g.2.1.2⟩,
    ⟨g.2.2.1.1.trans h.2.2.1.1, h.2.2.1.2.trans g.2.2.1.2⟩,
    g.2.2.2.1.trans h.2.2.2.1, h.2.2.2.2.trans g.2.2.2.2⟩

theorem SubBox.halfOpen {c b : Box K} (h : SubBox c b) {p : V3 K} (hp : InBoxHalfOpen c p) :
    InBoxHalfOpen b p :=
  ⟨⟨h.2.1.1.trans hp.1.1, hp.1.2.trans_le h.2.1.2⟩,
    ⟨h.2.2.1.1.trans hp.2.1.1, hp.2.1.2.trans_le h.2.2.1.2⟩,
    h.2.2.2.1.trans hp.2.2.1, hp.2.2.2.trans_le h.2.2.2.2⟩

theorem SubBox.inBox {c b : Box K} (h : SubBox c b) {p : V3 K} (hp : InBox c p) : InBox b p :=
  ⟨⟨h.2.1.1.trans hp.1.1, hp.1.2.trans h.2.1.2⟩,
    ⟨h.2.2.1.1.trans hp.2.1.1, hp.2.1.2.trans h.2.2.1.2⟩,
    h.2.2.2.1.trans hp.2.2.1, hp.2.2.2.trans h.2.2.2.2⟩

/-- A tiling of the tiles is a tiling. -/
theorem tiles_flatten {b : Box K} {bs : List (Box K)} {Ls : List (List (Box K))} (hb : Tiles b bs)
    (h : List.Forall₂ Tiles bs Ls) : Tiles b Ls.flatten where
  within := by
    intro c hc
    obtain ⟨L, hL, hcL⟩ := List.mem_flatten.1 hc
    have : ∃ a ∈ bs, Tiles a L := by
      clear hb hc
      induction h with
      | nil => cases hL
      | cons h1 _ ih =>
        rcases List.mem_cons.1 hL with rfl | hL
        · exact ⟨_, by simp, h1⟩
        · obtain ⟨a, ha, h2⟩ := ih hL; exact ⟨a, by simp [ha], h2⟩
    obtain ⟨a, ha, h2⟩ := this
    exact SubBox.trans (h2.within c hcL) (hb.within a ha)
  cover := by
    intro p hp
    obtain ⟨c, hc, hcp⟩ := hb.cover p hp
    clear hb hp
    induction h with
    | nil => cases hc
    | cons h1 _ ih =>
      rcases List.mem_cons.1 hc with rfl | hc
      · obtain ⟨d, hd, hdp⟩ := h1.cover p hcp
        exact ⟨d, by simp [hd], hdp⟩
      · obtain ⟨d, hd, hdp⟩ := ih hc
        exact ⟨d, by simp only [List.flatten_cons, List.mem_append]; exact Or.inr hd, hdp⟩
  unique := by
    intro p hp
    obtain ⟨l, c, r, e, hc, hn⟩ := hb.unique p hp
    subst e
    obtain ⟨Ll, Lr, h1, h2, rfl⟩ : ∃ Ll Lr, List.Forall₂ Tiles l Ll ∧ List.Forall₂ Tiles (c :: r) Lr ∧
        Ls = Ll ++ Lr := by
      refine ⟨Ls.take l.length, Ls.drop l.length, ?_, ?_, (List.take_append_drop _ _).symm⟩
      · have := List.forall₂_take l.length h
        simpa using this
      · have := List.forall₂_drop l.length h
        simpa using this
    cases h2 with
    | @cons _ L _ Lr hcL hr =>
    have out : ∀ {as : List (Box K)} {As : List (List (Box K))}, List.Forall₂ Tiles as As →
        (∀ a ∈ as, ¬ InBoxHalfOpen a p) → ∀ d ∈ As.flatten, ¬ InBoxHalfOpen d p := by
      intro as As hA
      induction hA with
      | nil => intro _ d hd; simp at hd
      | cons hh _ ih =>
        intro hno d hd hdp
        rw [List.flatten_cons, List.mem_append] at hd
        rcases hd with hd | hd
        · exact hno _ (by simp) (SubBox.halfOpen (hh.within d hd) hdp)
        · exact ih (fun a ha => hno a (by simp [ha])) d hd hdp
    obtain ⟨l', c', r', e', hc', hn'⟩ := hcL.unique p hc
    refine ⟨Ll.flatten ++ l', c', r' ++ Lr.flatten, ?_, hc', ?_⟩
    · simp [e']
    · intro d hd
      simp only [List.mem_append] at hd
      rcases hd with (hd | hd) | (hd | hd)
      · exact out h1 (fun a ha => hn a (by simp [ha])) d hd
      · exact hn' d (by simp [hd])
      · exact hn' d (by simp [hd])
      · exact out hr (fun a ha => hn a (by simp [ha])) d hd
  volume := by
    rw [← hb.volume]
    clear hb
    induction h with
    | nil => rfl
    | cons h1 _ ih =>
      rw [List.flatten_cons, List.map_append, List.sum_append, h1.volume, ih, List.map_cons, List.sum_cons]

theorem Tiles.perm {b : Box K} {bs cs : List (Box K)} (h : Tiles b bs) (e : bs.Perm cs) : Tiles b cs where
  within := fun c hc => h.within c (e.mem_iff.2 hc)
  cover := fun p hp => by
    obtain ⟨c, hc, hcp⟩ := h.cover p hp
    exact ⟨c, e.mem_iff.1 hc, hcp⟩
  unique := fun p hp => by
    obtain ⟨l, c, r, e1, hc, hn⟩ := h.unique p hp
    have hcm : c ∈ cs := e.mem_iff.1 (by simp [e1])
    obtain ⟨l', r', e2⟩ := List.append_of_mem hcm
    refine ⟨l', c, r', e2, hc, ?_⟩
    have : (l ++ r).Perm (l' ++ r') := by
      have h1 : (c :: (l ++ r)).Perm (c :: (l' ++ r')) := by
        refine (List.perm_middle.symm).trans ?_
        rw [← e1]
        refine e.trans ?_
        rw [e2]
        exact List.perm_middle
      exact (List.perm_cons c).1 h1
    intro d hd
    exact hn d (this.mem_iff.2 hd)
  volume := by rw [← h.volume]; exact (e.symm.map _).sum_eq

/-! ### The eight children -/

/-- A child box in terms of the midpoint. -/
def oct (b : Box K) (i j k : Bool) : Box K :=
  ⟨⟨if i then (b.lower.x + b.upper.x) / 2 else b.lower.x, if j then (b.lower.y + b.upper.y) / 2 else b.lower.y,
    if k then (b.lower.z + b.upper.z) / 2 else b.lower.z⟩,
   ⟨if i then b.upper.x else (b.lower.x + b.upper.x) / 2, if j then b.upper.y else (b.lower.y + b.upper.y) / 2,
    if k then b.upper.z else (b.lower.z + b.upper.z) / 2⟩⟩

attribute [ext] V3 Box

theorem childBox_oct (b : Box K) :
    childBox b 0 = oct b false false false ∧ childBox b 1 = oct b true false false ∧
    childBox b 2 = oct b true true false ∧ childBox b 3 = oct b false true false ∧
    childBox b 4 = oct b false false true ∧ childBox b 5 = oct b true false true ∧
    childBox b 6 = oct b true true true ∧ childBox b 7 = oct b false true true := by
  refine ⟨?_, ?_, ?_, ?_, ?_, ?_, ?_, ?_⟩ <;>
    (apply Box.ext <;> apply V3.ext <;> simp [childBox, oct] <;> ring)

/-- The child boxes in the order of the code. -/
def kids (b : Box K) : List (Box K) :=
  [childBox b 0, childBox b 1, childBox b 2, childBox b 3, childBox b 4, childBox b 5, childBox b 6,
    childBox b 7]

theorem mem_kids {b c : Box K} : c ∈ kids b ↔ ∃ i j k, c = oct b i j k := by
  obtain ⟨h0, h1, h2, h3, h4, h5, h6, h7⟩ := childBox_oct b
  simp only [kids, h0, h1, h2, h3, h4, h5, h6, h7]
  simp only [Bool.exists_bool, List.mem_cons, List.not_mem_nil, or_false]
  tauto

theorem kids_perm_octants (b : Box K) : (kids b).Perm (octants b) := by
  obtain ⟨h0, h1, h2, h3, h4, h5, h6, h7⟩ := childBox_oct b
  have e : octants b = [oct b false false false, oct b true false false, oct b false true false,
      oct b true true false, oct b false false true, oct b true false true, oct b false true true,
      oct b true true true] := by
    simp [octants, oct]
  simp only [kids, e, h0, h1, h2, h3, h4, h5, h6, h7]
  refine (List.Perm.cons _ (List.Perm.cons _ ?_))
  refine (List.Perm.swap _ _ _).trans ?_
  refine (List.Perm.cons _ (List.Perm.cons _ (List.Perm.cons _ (List.Perm.cons _ ?_))))
  exact List.Perm.swap _ _ _

theorem mem_octants {b c : Box K} : c ∈ octants b ↔ c ∈ kids b := (kids_perm_octants b).mem_iff.symm

theorem oct_sub {b : Box K} (h : OrderedBox b) (i j k : Bool) : SubBox (oct b i j k) b := by
  obtain ⟨hx, hy, hz⟩ := h
  refine ⟨⟨?_, ?_, ?_⟩, ⟨?_, ?_⟩, ⟨?_, ?_⟩, ?_, ?_⟩ <;> cases i <;> cases j <;> cases k <;> simp [oct] <;>
    linarith

theorem inHalf_iff (lo up t : K) (h : lo ≤ t ∧ t < up) (i : Bool) :
    ((if i then (lo + up) / 2 else lo) ≤ t ∧ t < (if i then up else (lo + up) / 2)) ↔
      i = decide ((lo + up) / 2 ≤ t) := by
  cases i
  · simp only [Bool.false_eq_true, if_false, h.1, true_and]
    by_cases hh : (lo + up) / 2 ≤ t <;> simp [hh]
    exact lt_of_not_ge hh
  · simp only [if_true, h.2, and_true]
    by_cases hh : (lo + up) / 2 ≤ t <;> simp [hh]

theorem inOct_iff {b : Box K} {p : V3 K} (h : InBoxHalfOpen b p) (i j k : Bool) :
    InBoxHalfOpen (oct b i j k) p ↔
      i = decide ((b.lower.x + b.upper.x) / 2 ≤ p.x) ∧ j = decide ((b.lower.y + b.upper.y) / 2 ≤ p.y) ∧
        k = decide ((b.lower.z + b.upper.z) / 2 ≤ p.z) := by
  unfold InBoxHalfOpen oct
  simp only
  rw [inHalf_iff _ _ _ h.1, inHalf_iff _ _ _ h.2.1, inHalf_iff _ _ _ h.2.2]

theorem sum_kids (I : Box K → K) (b : Box K) :
    ((kids b).map I).sum = I (oct b false false false) + I (oct b true false false) +
      I (oct b true true false) + I (oct b false true false) + I (oct b false false true) +
      I (oct b true false true) + I (oct b true true true) + I (oct b false true true) := by
  obtain ⟨h0, h1, h2, h3, h4, h5, h6, h7⟩ := childBox_oct b
  simp only [kids, h0, h1, h2, h3, h4, h5, h6, h7, List.map_cons, List.map_nil, List.sum_cons, List.sum_nil]
  ring

theorem monomial_additive (e : V3 Nat) (b : Box K) :
    ((kids b).map (monomialIntegral e)).sum = monomialIntegral e b := by
  rw [sum_kids]
  simp only [monomialIntegral, oct, Bool.false_eq_true, if_false, if_true]
  ring

theorem volume_eq_monomial (b : Box K) : monomialIntegral ⟨0, 0, 0⟩ b = boxVolume b := by
  simp [monomialIntegral, boxVolume]

theorem tiles_kids {b : Box K} (h : OrderedBox b) : Tiles b (kids b) where
  within := by
    intro c hc
    obtain ⟨i, j, k, rfl⟩ := mem_kids.1 hc
    exact oct_sub h i j k
  cover := by
    intro p hp
    refine ⟨oct b (decide ((b.lower.x + b.upper.x) / 2 ≤ p.x)) (decide ((b.lower.y + b.upper.y) / 2 ≤ p.y))
      (decide ((b.lower.z + b.upper.z) / 2 ≤ p.z)), mem_kids.2 ⟨_, _, _, rfl⟩, ?_⟩
    have key : ∀ lo up t : K, lo ≤ t ∧ t ≤ up →
        (if decide ((lo + up) / 2 ≤ t) = true then (lo + up) / 2 else lo) ≤ t ∧
        t ≤ (if decide ((lo + up) / 2 ≤ t) = true then up else (lo + up) / 2) := by
      intro lo up t ht
      by_cases hh : (lo + up) / 2 ≤ t <;> simp [hh, ht]
      exact (lt_of_not_ge hh).le
    exact ⟨key _ _ _ hp.1, key _ _ _ hp.2.1, key _ _ _ hp.2.2⟩
  unique := by
    intro p hp
    obtain ⟨h0, h1, h2, h3, h4, h5, h6, h7⟩ := childBox_oct b
    have hi := inOct_iff hp
    simp only [kids, h0, h1, h2, h3, h4, h5, h6, h7]
    generalize decide ((b.lower.x + b.upper.x) / 2 ≤ p.x) = i at hi
    generalize decide ((b.lower.y + b.upper.y) / 2 ≤ p.y) = j at hi
    generalize decide ((b.lower.z + b.upper.z) / 2 ≤ p.z) = k at hi
    cases i <;> cases j <;> cases k
    · exact ⟨[], _, _, rfl, (hi _ _ _).2 (by simp), by simp [hi]⟩
    · exact ⟨[_, _, _, _], _, _, rfl, (hi _ _ _).2 (by simp), by simp [hi]⟩
    · exact ⟨[_, _, _], _, _, rfl, (hi _ _ _).2 (by simp), by simp [hi]⟩
    · exact ⟨[_, _, _, _, _, _, _], _, _, rfl, (hi _ _ _).2 (by simp), by simp [hi]⟩
    · exact ⟨[_], _, _, rfl, (hi _ _ _).2 (by simp), by simp [hi]⟩
    · exact ⟨[_, _, _, _, _], _, _, rfl, (hi _ _ _).2 (by simp), by simp [hi]⟩
    · exact ⟨[_, _], _, _, rfl, (hi _ _ _).2 (by simp), by simp [hi]⟩
    · exact ⟨[_, _, _, _, _, _], _, _, rfl, (hi _ _ _).2 (by simp), by simp [hi]⟩
  volume := by
    have := monomial_additive ⟨0, 0, 0⟩ b
    simpa only [funext volume_eq_monomial] using this

end QuESo.Octree
