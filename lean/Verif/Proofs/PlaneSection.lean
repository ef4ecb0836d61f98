import Verif.Proofs.PlaneTop
import Verif.Spec.PlaneSection

/-!
# Edges that face up and the edges below them
-/
namespace QuESo.Plane
open QuESo.AABBTree (Fault)
open QuESo.Spec
variable {K : Type} [Field K] [LinearOrder K] [IsStrictOrderedRing K]

abbrev Seg (K : Type) := P2 K × P2 K

/-- The height of an edge, looking up (or down). -/
def hs (up : Bool) (e : Seg K) (x : K) : K := if up then heightOver e x else -heightOver e x

/-- What is needed of two lists of edges, looking up (or down). -/
structure Params.Layers (P : Params K) (up : Bool) (X : List K) (D O : List (Seg K)) : Prop where
  disjoint : ∀ e ∈ D, ∀ f ∈ O, e ≠ f
  right : ∀ e, e ∈ D ∨ e ∈ O → e.1.x < e.2.x ∧ e.1.x ∈ X ∧ e.2.x ∈ X
  apart : ∀ x ∈ X, ∀ y ∈ X, x = y ∨ 10 * P.tol < |x - y|
  order : ∀ e f, e ∈ D ∨ e ∈ O → f ∈ D ∨ f ∈ O → e ≠ f → ∀ x y, covers e x → covers f x → covers e y → covers f y →
    hs up e x < hs up f x → hs up e y ≤ hs up f y
  differ : ∀ e f, e ∈ D ∨ e ∈ O → f ∈ D ∨ f ∈ O → e ≠ f → ∀ x, x ∉ X → covers e x → covers f x → hs up e x ≠ hs up f x
  clear : ∀ e f, e ∈ D ∨ e ∈ O → f ∈ D ∨ f ∈ O → e ≠ f → ∀ x ∈ X, inner e x → covers f x → P.tol + P.zt < |hs up e x - hs up f x|
  limit : ∀ e ∈ D, ∀ f ∈ O, ∀ x, covers e x → covers f x → |hs up e x - hs up f x| + P.zt < 10 ^ 15
  betweenD : ∀ e ∈ D, ∀ g ∈ D, ∀ x, x ∉ X → covers e x → covers g x → hs up g x < hs up e x →
    ∃ f ∈ O, covers f x ∧ hs up g x < hs up f x ∧ hs up f x < hs up e x
  betweenO : ∀ e ∈ O, ∀ g ∈ O, ∀ x, x ∉ X → covers e x → covers g x → hs up g x < hs up e x →
    ∃ f ∈ D, covers f x ∧ hs up g x < hs up f x ∧ hs up f x < hs up e x

/-- Two positions on the two sides of a third one, close to it. -/
def Beside (X : List K) (x0 x1 x2 : K) : Prop := x1 ∉ X ∧ x2 ∉ X ∧
  ((x1 < x0 ∧ x0 < x2 ∧ ∀ z ∈ X, x1 < z → z < x2 → z = x0) ∨ (x2 < x0 ∧ x0 < x1 ∧ ∀ z ∈ X, x2 < z → z < x1 → z = x0))

theorem Beside.symm {X : List K} {x0 x1 x2 : K} (h : Beside X x0 x1 x2) : Beside X x0 x2 x1 := ⟨h.2.1, h.1, h.2.2.symm⟩

theorem beside_covers {X : List K} {x0 x1 x2 : K} (h : Beside X x0 x1 x2) {e : Seg K} (h1 : e.1.x ∈ X) (h2 : e.2.x ∈ X)
    (hc : covers e x1) : covers e x0 := by
  obtain ⟨n1, n2, ⟨a, b, c⟩ | ⟨a, b, c⟩⟩ := h
  · refine ⟨hc.1.trans a.le, ?_⟩
    by_contra hn
    have hlt : x1 < e.2.x := lt_of_le_of_ne hc.2 (fun h => n1 (h ▸ h2))
    exact absurd (c _ h2 hlt ((not_le.1 hn).trans b)) (ne_of_lt (not_le.1 hn))
  · refine ⟨?_, b.le.trans hc.2⟩
    by_contra hn
    have hlt : e.1.x < x1 := lt_of_le_of_ne hc.1 (fun h => n1 (h ▸ h1))
    exact absurd (c _ h1 (a.trans (not_le.1 hn)) hlt) (ne_of_gt (not_le.1 hn))

theorem beside_inner {X : List K} {x0 x1 x2 : K} (h : Beside X x0 x1 x2) {e : Seg K} (h1 : e.1.x ∈ X) (h2 : e.2.x ∈ X)
    (hc : inner e x0) : covers e x1 := by
  obtain ⟨n1, n2, ⟨a, b, c⟩ | ⟨a, b, c⟩⟩ := h
  · refine ⟨?_, a.le.trans hc.2.le⟩
    by_contra hn
    exact absurd (c _ h1 (not_le.1 hn) (hc.1.trans b)) (ne_of_lt hc.1)
  · refine ⟨hc.1.le.trans b.le, ?_⟩
    by_contra hn
    exact absurd (c _ h2 (a.trans hc.2) (not_le.1 hn)) (ne_of_gt hc.2)

theorem beside_one {X : List K} {x0 x1 x2 : K} (h : Beside X x0 x1 x2) {e : Seg K} (hr : e.1.x < e.2.x) (h1 : e.1.x ∈ X) (h2 : e.2.x ∈ X)
    (hc : covers e x0) : covers e x1 ∨ covers e x2 := by
  by_cases hi : inner e x0
  · exact Or.inl (beside_inner h h1 h2 hi)
  have hcase : e.1.x = x0 ∨ e.2.x = x0 := by
    by_contra hn
    push Not at hn
    exact hi ⟨lt_of_le_of_ne hc.1 hn.1, lt_of_le_of_ne hc.2 (Ne.symm hn.2)⟩
  obtain ⟨n1, n2, ⟨a, b, c⟩ | ⟨a, b, c⟩⟩ := h
  · rcases hcase with h0 | h0
    · right
      refine ⟨by rw [h0]; exact b.le, ?_⟩
      by_contra hn
      have := c _ h2 (a.trans (by rw [← h0]; exact hr)) (not_le.1 hn)
      rw [this, h0] at hr
      exact lt_irrefl _ hr
    · left
      refine ⟨?_, by rw [h0]; exact a.le⟩
      by_contra hn
      have := c _ h1 (not_le.1 hn) ((by rw [← h0]; exact hr : e.1.x < x0).trans b)
      rw [this, h0] at hr
      exact lt_irrefl _ hr
  · rcases hcase with h0 | h0
    · left
      refine ⟨by rw [h0]; exact b.le, ?_⟩
      by_contra hn
      have := c _ h2 (a.trans (by rw [← h0]; exact hr)) (not_le.1 hn)
      rw [this, h0] at hr
      exact lt_irrefl _ hr
    · right
      refine ⟨?_, by rw [h0]; exact a.le⟩
      by_contra hn
      have := c _ h1 (not_le.1 hn) ((by rw [← h0]; exact hr : e.1.x < x0).trans b)
      rw [this, h0] at hr
      exact lt_irrefl _ hr

/-- The next edge of `O` below an edge. -/
structure Neighbor (up : Bool) (O : List (Seg K)) (e f : Seg K) (x : K) : Prop where
  mem : f ∈ O
  covers : covers f x
  below : hs up f x < hs up e x
  next : ∀ g ∈ O, Plane.covers g x → hs up g x < hs up e x → hs up g x ≤ hs up f x

/-- What is known about where the edges `D` are cut. -/
structure Params.Cuts (P : Params K) (up : Bool) (D O : List (Seg K)) (ps : List (P2 K)) (cut : Seg K → K → Prop) : Prop where
  ends : ∀ p ∈ ps, ∃ f ∈ O, p = f.1 ∨ p = f.2
  all : ∀ f ∈ O, f.1 ∈ ps ∧ f.2 ∈ ps
  seen : ∀ e x, cut e x → ∃ p ∈ ps, p.x = x ∧ P.Seen up O D p e
  cut : ∀ p ∈ ps, (∀ e ∈ D, P.Target up e p → P.Hidden up O p e) ∨ ∃ e ∈ D, P.Seen up O D p e ∧ cut e p.x

theorem heightOver_fst {e : Seg K} (h : e.1.x < e.2.x) : heightOver e e.1.x = e.1.y := by
  unfold heightOver
  rw [sub_self, mul_zero, zero_div, add_zero]

theorem heightOver_snd {e : Seg K} (h : e.1.x < e.2.x) : heightOver e e.2.x = e.2.y := by
  unfold heightOver
  rw [mul_div_assoc, div_self (by linarith : e.2.x - e.1.x ≠ 0)]
  ring

/-- The gap between a point of an edge and another edge. -/
theorem gap_hs (up : Bool) (e f : Seg K) (p : P2 K) (h : p.y = heightOver f p.x) : gap up e p = hs up e p.x - hs up f p.x := by
  unfold gap hs
  rw [h]
  cases up <;> simp <;> ring

theorem gap_not (up : Bool) (e f : Seg K) (p : P2 K) (h : p.y = heightOver f p.x) : gap (!up) e p = hs up f p.x - hs up e p.x := by
  unfold gap hs
  rw [h]
  cases up <;> simp; ring

section
variable {P : Params K} {up : Bool} {X : List K} {D O : List (Seg K)}

/-- Strict order at one position carries over to generic ones. -/
theorem order_generic (L : P.Layers up X D O) {e f : Seg K} (he : e ∈ D ∨ e ∈ O) (hf : f ∈ D ∨ f ∈ O) {x y : K} (h1 : covers e x) (h2 : covers f x)
    (h3 : covers e y) (h4 : covers f y) (hy : y ∉ X) (h : hs up e x < hs up f x) : hs up e y < hs up f y := by
  have hne : e ≠ f := by rintro rfl; exact lt_irrefl _ h
  exact lt_of_le_of_ne (L.order e f he hf hne x y h1 h2 h3 h4 h) (L.differ e f he hf hne y hy h3 h4)

/-- Strict order carries over to positions where one edge is not at its end. -/
theorem order_inner (L : P.Layers up X D O) (hP : P.Sound) {e f : Seg K} (he : e ∈ D ∨ e ∈ O) (hf : f ∈ D ∨ f ∈ O) {x y : K} (h1 : covers e x) (h2 : covers f x)
    (h3 : covers e y) (h4 : covers f y) (hy : inner e y ∨ inner f y) (h : hs up e x < hs up f x) : hs up e y < hs up f y := by
  have hne : e ≠ f := by rintro rfl; exact lt_irrefl _ h
  refine lt_of_le_of_ne (L.order e f he hf hne x y h1 h2 h3 h4 h) ?_
  by_cases hx : y ∈ X
  · intro h0
    have ht := hP.tol_pos
    have hz := hP.zt_pos
    rcases hy with hy | hy
    · have := L.clear e f he hf hne y hx hy h4
      rw [h0, sub_self, abs_zero] at this
      linarith
    · have := L.clear f e hf he hne.symm y hx hy h3
      rw [h0, sub_self, abs_zero] at this
      linarith
  · exact L.differ e f he hf hne y hx h3 h4

theorem inner_covers {e : Seg K} {x : K} (h : inner e x) : covers e x := ⟨h.1.le, h.2.le⟩

/-- Of the edges of `O` below an edge that is not cut, the highest one is not at its end. -/
theorem topmost_inner (hP : P.Sound) (L : P.Layers up X D O) {ps : List (P2 K)} {cut : Seg K → K → Prop} (C : P.Cuts up D O ps cut)
    {e g : Seg K} {x0 x1 x2 : K} (hB : Beside X x0 x1 x2) (hx : x0 ∈ X) (he : e ∈ D) (hi : inner e x0) (hcut : ¬ cut e x0) (hg : g ∈ O)
    (hgc : covers g x0) (hge : hs up g x0 < hs up e x0) (hmax : ∀ o ∈ O, covers o x0 → hs up o x0 < hs up e x0 → hs up o x0 ≤ hs up g x0) :
    inner g x0 := by
  have ht := hP.tol_pos
  have hz := hP.zt_pos
  by_contra hni
  obtain ⟨hgr, hg1, hg2⟩ := L.right g (Or.inr hg)
  obtain ⟨her, he1, he2⟩ := L.right e (Or.inl he)
  have hp : ∃ p ∈ ps, p.x = x0 ∧ p.y = heightOver g x0 := by
    have hcase : g.1.x = x0 ∨ g.2.x = x0 := by
      by_contra hn
      push Not at hn
      exact hni ⟨lt_of_le_of_ne hgc.1 hn.1, lt_of_le_of_ne hgc.2 (Ne.symm hn.2)⟩
    rcases hcase with h | h
    · exact ⟨g.1, (C.all g hg).1, h, by rw [← h, heightOver_fst hgr]⟩
    · exact ⟨g.2, (C.all g hg).2, h, by rw [← h, heightOver_snd hgr]⟩
  obtain ⟨p, hps, hpx, hpy⟩ := hp
  have hpy' : p.y = heightOver g p.x := by rw [hpx]; exact hpy
  have hgap : ∀ o : Seg K, gap up o p = hs up o x0 - hs up g x0 := by
    intro o
    rw [gap_hs up o g p hpy', hpx]
  have hcl := L.clear e g (Or.inl he) (Or.inr hg) (L.disjoint e he g hg) x0 hx hi hgc
  rw [abs_of_pos (by linarith)] at hcl
  have hfar : ∀ z ∈ X, z < x0 → z + P.tol ≤ x0 := by
    intro z hzX hlt
    rcases L.apart z hzX x0 hx with h | h
    · exact absurd h hlt.ne
    · rw [abs_sub_comm, abs_of_pos (by linarith)] at h
      linarith
  have hfar' : ∀ z ∈ X, x0 < z → x0 ≤ z - P.tol := by
    intro z hzX hlt
    rcases L.apart z hzX x0 hx with h | h
    · exact absurd h hlt.ne'
    · rw [abs_of_pos (by linarith)] at h
      linarith
  have htarget : P.Target up e p := by
    refine ⟨by rw [hpx]; exact hfar _ he1 hi.1, by rw [hpx]; exact hfar' _ he2 hi.2, ?_⟩
    rw [hgap]
    linarith
  have hcov : ∀ o : Seg K, o.1.x ∈ X → o.2.x ∈ X → o.1.x - P.tol < x0 → x0 < o.2.x + P.tol → covers o x0 := by
    intro o h1 h2 h3 h4
    constructor
    · by_contra hn
      have := hfar' _ h1 (not_le.1 hn)
      linarith
    · by_contra hn
      have := hfar _ h2 (not_le.1 hn)
      linarith
  rcases C.cut p hps with hhid | ⟨e', he', hseen, hcut'⟩
  · rcases hhid e he htarget with h | ⟨o, ho, hbl, hle⟩
    · have := L.limit e he g hg x0 (inner_covers hi) hgc
      rw [abs_of_pos (by linarith)] at this
      rw [hgap] at h
      linarith
    · obtain ⟨hor, ho1, ho2⟩ := L.right o (Or.inr ho)
      have hoc : covers o x0 := hcov o ho1 ho2 (by rw [← hpx]; exact hbl.1) (by rw [← hpx]; exact hbl.2.1)
      have hog := hbl.2.2.2
      rw [hgap] at hog
      rw [hgap, hgap] at hle
      have hclo := L.clear e o (Or.inl he) (Or.inr ho) (L.disjoint e he o ho) x0 hx hi hoc
      have hoe : hs up o x0 < hs up e x0 := by
        by_contra hn
        rw [abs_sub_comm, abs_of_nonneg (by linarith [not_lt.1 hn])] at hclo
        linarith
      have := hmax o ho hoc hoe
      linarith
  · by_cases hee : e' = e
    · subst hee
      rw [hpx] at hcut'
      exact hcut hcut'
    · obtain ⟨her', he1', he2'⟩ := L.right e' (Or.inl he')
      have hi' : inner e' x0 := by
        have h1 := hseen.target.1
        have h2 := hseen.target.2.1
        rw [hpx] at h1 h2
        exact ⟨by linarith, by linarith⟩
      have hfirst := hseen.first e he htarget
      have htg := hseen.target.2.2
      rw [hgap] at htg
      rw [hgap, hgap] at hfirst
      have hcl' := L.clear e' e (Or.inl he') (Or.inl he) hee x0 hx hi' (inner_covers hi)
      have hlt : hs up e' x0 < hs up e x0 := by
        by_contra hn
        rw [abs_of_nonneg (by linarith [not_lt.1 hn])] at hcl'
        linarith
      have hgt : hs up g x0 < hs up e' x0 := by linarith
      -- on the side where `g` is
      have side : ∀ y, y ∉ X → covers g y → covers e y → covers e' y → (∀ o : Seg K, o.1.x ∈ X → o.2.x ∈ X → covers o y → covers o x0) → False := by
        intro y hy hgy hey hey' hback
        have l1 : hs up e' y < hs up e y := order_generic L (Or.inl he') (Or.inl he) (inner_covers hi') (inner_covers hi) hey' hey hy hlt
        obtain ⟨o, ho, hoy, ho1, ho2⟩ := L.betweenD e he e' he' y hy hey hey' l1
        obtain ⟨hor, hoX1, hoX2⟩ := L.right o (Or.inr ho)
        have hoc := hback o hoX1 hoX2 hoy
        have m1 : hs up o x0 < hs up e x0 := order_inner L hP (Or.inr ho) (Or.inl he) hoy hey hoc (inner_covers hi) (Or.inr hi) ho2
        have m2 : hs up e' x0 < hs up o x0 := order_inner L hP (Or.inl he') (Or.inr ho) hey' hoy (inner_covers hi') hoc (Or.inl hi') ho1
        have := hmax o ho hoc m1
        linarith
      rcases beside_one hB hgr hg1 hg2 hgc with hgy | hgy
      · exact side x1 hB.1 hgy (beside_inner hB he1 he2 hi) (beside_inner hB he1' he2' hi') (fun o h1 h2 h3 => beside_covers hB h1 h2 h3)
      · exact side x2 hB.2.1 hgy (beside_inner hB.symm he1 he2 hi) (beside_inner hB.symm he1' he2' hi') (fun o h1 h2 h3 => beside_covers hB.symm h1 h2 h3)

theorem exists_max {α : Type} (f : α → K) : ∀ (l : List α), l ≠ [] → ∃ a ∈ l, ∀ b ∈ l, f b ≤ f a
  | [], h => absurd rfl h
  | [a], _ => ⟨a, by simp, by simp⟩
  | a :: b :: l, _ => by
    obtain ⟨m, hm, hmax⟩ := exists_max f (b :: l) (by simp)
    rcases le_total (f a) (f m) with h | h
    · refine ⟨m, List.mem_cons_of_mem _ hm, ?_⟩
      intro c hc
      rcases List.mem_cons.1 hc with rfl | hc
      · exact h
      · exact hmax c hc
    · refine ⟨a, List.mem_cons_self, ?_⟩
      intro c hc
      rcases List.mem_cons.1 hc with rfl | hc
      · exact le_rfl
      · exact (hmax c hc).trans h

open Classical in
theorem exists_topmost (up : Bool) (O : List (Seg K)) (e : Seg K) (x0 : K) (h : ∃ o ∈ O, covers o x0 ∧ hs up o x0 < hs up e x0) :
    ∃ g ∈ O, covers g x0 ∧ hs up g x0 < hs up e x0 ∧ ∀ o ∈ O, covers o x0 → hs up o x0 < hs up e x0 → hs up o x0 ≤ hs up g x0 := by
  obtain ⟨o, ho, h1, h2⟩ := h
  obtain ⟨g, hg, hmax⟩ := exists_max (fun o => hs up o x0) (O.filter fun o => decide (covers o x0 ∧ hs up o x0 < hs up e x0))
    (List.ne_nil_of_mem (List.mem_filter.2 ⟨ho, by simp [h1, h2]⟩))
  obtain ⟨hgO, hgp⟩ := List.mem_filter.1 hg
  simp only [decide_eq_true_eq] at hgp
  refine ⟨g, hgO, hgp.1, hgp.2, ?_⟩
  intro o ho h1 h2
  exact hmax o (List.mem_filter.2 ⟨ho, by simp [h1, h2]⟩)

/-- The neighbour stays the same where the edge is not cut. -/
theorem neighbor_persist (hP : P.Sound) (L : P.Layers up X D O) {ps : List (P2 K)} {cut : Seg K → K → Prop} (C : P.Cuts up D O ps cut)
    {e f : Seg K} {x0 x1 x2 : K} (hB : Beside X x0 x1 x2) (hx : x0 ∈ X) (he : e ∈ D) (hi : inner e x0) (hcut : ¬ cut e x0)
    (hn : Neighbor up O e f x1) : inner f x0 ∧ Neighbor up O e f x2 := by
  obtain ⟨her, he1, he2⟩ := L.right e (Or.inl he)
  obtain ⟨hfr, hf1, hf2⟩ := L.right f (Or.inr hn.mem)
  have hc1 := beside_inner hB he1 he2 hi
  have hc2 := beside_inner hB.symm he1 he2 hi
  have hf0 := beside_covers hB hf1 hf2 hn.covers
  have hfe0 : hs up f x0 < hs up e x0 := order_inner L hP (Or.inr hn.mem) (Or.inl he) hn.covers hc1 hf0 (inner_covers hi) (Or.inr hi) hn.below
  obtain ⟨g, hg, hgc, hge, hgmax⟩ := exists_topmost up O e x0 ⟨f, hn.mem, hf0, hfe0⟩
  have hgi := topmost_inner hP L C hB hx he hi hcut hg hgc hge hgmax
  obtain ⟨hgr, hg1, hg2⟩ := L.right g (Or.inr hg)
  have hgx1 := beside_inner hB hg1 hg2 hgi
  have hgf : g = f := by
    by_contra hne
    have l1 : hs up g x1 < hs up e x1 := order_generic L (Or.inr hg) (Or.inl he) hgc (inner_covers hi) hgx1 hc1 hB.1 hge
    have l2 : hs up g x1 < hs up f x1 := lt_of_le_of_ne (hn.next g hg hgx1 l1) (L.differ g f (Or.inr hg) (Or.inr hn.mem) hne x1 hB.1 hgx1 hn.covers)
    have l3 : hs up g x0 < hs up f x0 := order_inner L hP (Or.inr hg) (Or.inr hn.mem) hgx1 hn.covers hgc hf0 (Or.inl hgi) l2
    exact absurd (hgmax f hn.mem hf0 hfe0) (not_le.2 l3)
  subst hgf
  have hfx2 := beside_inner hB.symm hf1 hf2 hgi
  refine ⟨hgi, hn.mem, hfx2, order_generic L (Or.inr hn.mem) (Or.inl he) hf0 (inner_covers hi) hfx2 hc2 hB.2.1 hfe0, ?_⟩
  intro o ho hoc hoe
  obtain ⟨hor, ho1, ho2⟩ := L.right o (Or.inr ho)
  have ho0 := beside_covers hB.symm ho1 ho2 hoc
  have hoe0 : hs up o x0 < hs up e x0 := order_inner L hP (Or.inr ho) (Or.inl he) hoc hc2 ho0 (inner_covers hi) (Or.inr hi) hoe
  have hle := hgmax o ho ho0 hoe0
  by_contra hnle
  have := order_inner L hP (Or.inr hn.mem) (Or.inr ho) hfx2 hoc hf0 ho0 (Or.inl hgi) (not_le.1 hnle)
  linarith

/-- The neighbour is not cut where the edge is not. -/
theorem neighbor_uncut (hP : P.Sound) (L : P.Layers up X D O) {ps : List (P2 K)} {cut : Seg K → K → Prop} (C : P.Cuts (!up) O D ps cut)
    {e f : Seg K} {x0 x1 x2 : K} (hB : Beside X x0 x1 x2) (hx : x0 ∈ X) (he : e ∈ D) (hi : inner e x0) (hfi : inner f x0)
    (hn1 : Neighbor up O e f x1) (hn2 : Neighbor up O e f x2) : ¬ cut f x0 := by
  have ht := hP.tol_pos
  have hz := hP.zt_pos
  intro hcut
  obtain ⟨p, hps, hpx, hseen⟩ := C.seen f x0 hcut
  obtain ⟨d, hd, hpd⟩ := C.ends p hps
  obtain ⟨hdr, hd1, hd2⟩ := L.right d (Or.inl hd)
  obtain ⟨her, he1, he2⟩ := L.right e (Or.inl he)
  obtain ⟨hfr, hf1, hf2⟩ := L.right f (Or.inr hn1.mem)
  have hdc : covers d x0 ∧ p.y = heightOver d x0 ∧ ¬ inner d x0 := by
    rcases hpd with rfl | rfl
    · rw [← hpx]
      exact ⟨⟨le_rfl, hdr.le⟩, (heightOver_fst hdr).symm, fun h => lt_irrefl _ h.1⟩
    · rw [← hpx]
      exact ⟨⟨hdr.le, le_rfl⟩, (heightOver_snd hdr).symm, fun h => lt_irrefl _ h.2⟩
  obtain ⟨hdc, hpy, hdi⟩ := hdc
  have hpy' : p.y = heightOver d p.x := by rw [hpx]; exact hpy
  have hgap : ∀ o : Seg K, gap (!up) o p = hs up d x0 - hs up o x0 := by
    intro o
    rw [gap_not up o d p hpy', hpx]
  have hde : d ≠ e := by rintro rfl; exact hdi hi
  have hfe0 : hs up f x0 < hs up e x0 := order_inner L hP (Or.inr hn1.mem) (Or.inl he) hn1.covers (beside_inner hB he1 he2 hi) (inner_covers hfi)
    (inner_covers hi) (Or.inr hi) hn1.below
  have hfd : hs up f x0 < hs up d x0 := by
    have := hseen.target.2.2
    rw [hgap] at this
    linarith
  have hcl := L.clear e d (Or.inl he) (Or.inl hd) hde.symm x0 hx hi hdc
  have hdlt : hs up d x0 < hs up e x0 := by
    by_contra hn
    have hge := not_lt.1 hn
    rw [abs_sub_comm, abs_of_nonneg (by linarith)] at hcl
    have hb : P.Blocks (!up) e p := by
      refine ⟨by rw [hpx]; linarith [hi.1], by rw [hpx]; linarith [hi.2], her.ne, ?_⟩
      rw [hgap]
      linarith
    have := hseen.free e he hb
    rw [hgap, hgap] at this
    linarith
  have side : ∀ y, y ∉ X → covers d y → covers e y → Neighbor up O e f y → False := by
    intro y hy hdy hey hny
    have l1 : hs up d y < hs up e y := order_generic L (Or.inl hd) (Or.inl he) hdc (inner_covers hi) hdy hey hy hdlt
    have l2 : hs up f y < hs up d y := order_generic L (Or.inr hn1.mem) (Or.inl hd) (inner_covers hfi) hdc hny.covers hdy hy hfd
    obtain ⟨o, ho, hoy, o1, o2⟩ := L.betweenD e he d hd y hy hey hdy l1
    have := hny.next o ho hoy o2
    linarith
  rcases beside_one hB hdr hd1 hd2 hdc with h | h
  · exact side x1 hB.1 h (beside_inner hB he1 he2 hi) hn1
  · exact side x2 hB.2.1 h (beside_inner hB.symm he1 he2 hi) hn2

/-- Strictly between two positions. -/
def Btw (x y z : K) : Prop := (x < z ∧ z < y) ∨ (y < z ∧ z < x)

theorem covers_along {X : List K} {x y : K} (hx : x ∉ X) (hno : ∀ z ∈ X, ¬ Btw x y z) {e : Seg K} (h1 : e.1.x ∈ X) (h2 : e.2.x ∈ X)
    (hc : covers e x) : covers e y := by
  have a1 : e.1.x < x := lt_of_le_of_ne hc.1 (fun h => hx (h ▸ h1))
  have a2 : x < e.2.x := lt_of_le_of_ne hc.2 (fun h => hx (h ▸ h2))
  constructor
  · by_contra hn
    exact hno _ h1 (Or.inr ⟨not_le.1 hn, a1⟩)
  · by_contra hn
    exact hno _ h2 (Or.inl ⟨a2, not_le.1 hn⟩)

/-- The nearest of the positions between two others. -/
theorem exists_nearest (Z : List K) (x y : K) (h : ∃ z ∈ Z, Btw x y z) :
    ∃ z ∈ Z, Btw x y z ∧ ∀ w ∈ Z, Btw x y w → ¬ Btw x z w := by
  classical
  obtain ⟨z0, hz0, hb0⟩ := h
  obtain ⟨z, hz, hmax⟩ := exists_max (fun z => -|z - x|) (Z.filter fun z => decide (Btw x y z)) (List.ne_nil_of_mem (List.mem_filter.2 ⟨hz0, by simpa using hb0⟩))
  obtain ⟨hzZ, hzb⟩ := List.mem_filter.1 hz
  simp only [decide_eq_true_eq] at hzb
  refine ⟨z, hzZ, hzb, ?_⟩
  intro w hw hwb hc
  have := hmax w (List.mem_filter.2 ⟨hw, by simpa using hwb⟩)
  rcases hc with hc | hc
  · rw [abs_of_pos (by linarith [hc.1]), abs_of_pos (by linarith [hc.1])] at this
    linarith [hc.2]
  · rw [abs_of_neg (by linarith [hc.1]), abs_of_neg (by linarith [hc.1, hc.2])] at this
    linarith [hc.1]

/-- A position just behind an abscissa. -/
theorem exists_behind (X : List K) {z y : K} (h : z ≠ y) : ∃ w, Btw z y w ∧ ∀ v ∈ X, ¬ Btw z w v ∧ v ≠ w := by
  have hmid : ∀ a b : K, a ≠ b → Btw a b ((a + b) / 2) := by
    intro a b hab
    rcases lt_or_gt_of_ne hab with h | h
    · left; constructor <;> linarith
    · right; constructor <;> linarith
  by_cases hex : ∃ v ∈ X, Btw z y v
  · obtain ⟨v, hv, hb, hmin⟩ := exists_nearest X z y hex
    have hvz : z ≠ v := by rcases hb with h | h; exact h.1.ne; exact h.2.ne'
    have hm := hmid z v hvz
    refine ⟨(z + v) / 2, ?_, ?_⟩
    · rcases hb with h | h <;> rcases hm with h' | h'
      · exact Or.inl ⟨h'.1, h'.2.trans h.2⟩
      · linarith [h.1, h'.1, h'.2]
      · linarith [h.2, h'.1, h'.2]
      · exact Or.inr ⟨h.1.trans h'.1, h'.2⟩
    · intro u hu
      have key : ¬ Btw z v u := by
        intro hc
        refine hmin u hu ?_ hc
        rcases hb with h | h <;> rcases hc with h' | h'
        · exact Or.inl ⟨h'.1, h'.2.trans h.2⟩
        · linarith [h.1, h'.1, h'.2]
        · linarith [h.2, h'.1, h'.2]
        · exact Or.inr ⟨h.1.trans h'.1, h'.2⟩
      constructor
      · intro hc
        apply key
        rcases hm with h | h <;> rcases hc with h' | h'
        · exact Or.inl ⟨h'.1, h'.2.trans h.2⟩
        · linarith [h.1, h'.1, h'.2]
        · linarith [h.2, h'.1, h'.2]
        · exact Or.inr ⟨h.1.trans h'.1, h'.2⟩
      · rintro rfl
        exact key hm
  · push Not at hex
    have hm := hmid z y h
    refine ⟨(z + y) / 2, hm, ?_⟩
    intro u hu
    constructor
    · intro hc
      refine hex u hu ?_
      rcases hm with h | h <;> rcases hc with h' | h'
      · exact Or.inl ⟨h'.1, h'.2.trans h.2⟩
      · linarith [h.1, h'.1, h'.2]
      · linarith [h.2, h'.1, h'.2]
      · exact Or.inr ⟨h.1.trans h'.1, h'.2⟩
    · rintro rfl
      exact hex _ hu hm

theorem beside_of {X : List K} {x z y w : K} (hx : x ∉ X) (hb : Btw x y z) (h1 : ∀ v ∈ X, ¬ Btw x z v) (hw : Btw z y w)
    (h2 : ∀ v ∈ X, ¬ Btw z w v ∧ v ≠ w) : Beside X z x w := by
  refine ⟨hx, fun h => (h2 w h).2 rfl, ?_⟩
  rcases hb with hb | hb <;> rcases hw with hw | hw
  · refine Or.inl ⟨hb.1, hw.1, ?_⟩
    intro v hv a b
    by_contra hne
    rcases lt_or_gt_of_ne hne with h | h
    · exact h1 v hv (Or.inl ⟨a, h⟩)
    · exact (h2 v hv).1 (Or.inl ⟨h, b⟩)
  · exact absurd hb.2 (not_lt.2 (hw.1.trans hw.2).le)
  · exact absurd hb.1 (not_lt.2 (hw.1.trans hw.2).le)
  · refine Or.inr ⟨hw.2, hb.2, ?_⟩
    intro v hv a b
    by_contra hne
    rcases lt_or_gt_of_ne hne with h | h
    · exact (h2 v hv).1 (Or.inr ⟨a, h⟩)
    · exact h1 v hv (Or.inr ⟨h, b⟩)

/-- The same neighbour along a part of an edge without cuts. -/
theorem neighbor_walk (hP : P.Sound) (L : P.Layers up X D O) {ps ps' : List (P2 K)} {cut cut' : Seg K → K → Prop} (C : P.Cuts up D O ps cut)
    (C' : P.Cuts (!up) O D ps' cut') {e f : Seg K} (he : e ∈ D) {y : K} (hy : y ∉ X) :
    ∀ (n : Nat) (Z : List K), Z.length ≤ n → ∀ x, x ∉ X → (∀ z ∈ X, Btw x y z → z ∈ Z) → covers e x → (∀ z ∈ X, Btw x y z → inner e z ∧ ¬ cut e z) →
      Neighbor up O e f x → covers e y ∧ Neighbor up O e f y ∧ ∀ z ∈ X, Btw x y z → inner f z ∧ ¬ cut' f z := by
  intro n
  induction n with
  | zero =>
    intro Z hZ x hx hin hc hun hn
    have hZ' : Z = [] := List.length_eq_zero_iff.1 (Nat.le_zero.1 hZ)
    subst hZ'
    have hno : ∀ z ∈ X, ¬ Btw x y z := fun z hz hb => absurd (hin z hz hb) (by simp)
    have hno' : ∀ z ∈ X, ¬ Btw y x z := fun z hz hb => hno z hz hb.symm
    obtain ⟨her, he1, he2⟩ := L.right e (Or.inl he)
    obtain ⟨hfr, hf1, hf2⟩ := L.right f (Or.inr hn.mem)
    have hcy := covers_along hx hno he1 he2 hc
    have hfy := covers_along hx hno hf1 hf2 hn.covers
    refine ⟨hcy, ⟨hn.mem, hfy, order_generic L (Or.inr hn.mem) (Or.inl he) hn.covers hc hfy hcy hy hn.below, ?_⟩, fun z hz hb => absurd hb (hno z hz)⟩
    intro g hg hgy hge
    obtain ⟨hgr, hg1, hg2⟩ := L.right g (Or.inr hg)
    have hgx := covers_along hy hno' hg1 hg2 hgy
    have := hn.next g hg hgx (order_generic L (Or.inr hg) (Or.inl he) hgy hcy hgx hc hx hge)
    by_contra hlt
    have h2 := order_generic L (Or.inr hn.mem) (Or.inr hg) hfy hgy hn.covers hgx hx (not_le.1 hlt)
    linarith
  | succ n ih =>
    intro Z hZ x hx hin hc hun hn
    by_cases hex : ∃ z ∈ X, Btw x y z
    · obtain ⟨z, hz, hb, hmin⟩ := exists_nearest X x y hex
      have hzy : z ≠ y := by rcases hb with h | h; exact h.2.ne; exact h.1.ne'
      obtain ⟨w, hw, hwX⟩ := exists_behind X hzy
      have hmin' : ∀ v ∈ X, ¬ Btw x z v := by
        intro v hv hc'
        refine hmin v hv ?_ hc'
        rcases hb with h | h <;> rcases hc' with h' | h'
        · exact Or.inl ⟨h'.1, h'.2.trans h.2⟩
        · linarith [h.1, h'.1, h'.2]
        · linarith [h.2, h'.1, h'.2]
        · exact Or.inr ⟨h.1.trans h'.1, h'.2⟩
      have hB := beside_of hx hb hmin' hw hwX
      obtain ⟨hei, hec⟩ := hun z hz hb
      obtain ⟨hfi, hn2⟩ := neighbor_persist hP L C hB hz he hei hec hn
      have hfu := neighbor_uncut hP L C' hB hz he hei hfi hn hn2
      obtain ⟨her, he1, he2⟩ := L.right e (Or.inl he)
      have hstep : ∀ v, Btw w y v → Btw x y v ∧ v ≠ z := by
        intro v hv
        rcases hb with h | h <;> rcases hw with h' | h' <;> rcases hv with h'' | h''
        · exact ⟨Or.inl ⟨by linarith [h.1, h'.1, h''.1], h''.2⟩, by have := h'.1.trans h''.1; exact this.ne'⟩
        · linarith [h'.2, h''.1, h''.2]
        · linarith [h.2, h'.1, h'.2]
        · linarith [h.2, h'.1, h'.2]
        · linarith [h.1, h'.1, h'.2]
        · linarith [h.1, h'.1, h'.2]
        · linarith [h'.1, h''.1, h''.2]
        · exact ⟨Or.inr ⟨h''.1, by linarith [h.2, h'.2, h''.2]⟩, by have := h''.2.trans h'.2; exact this.ne⟩
      obtain ⟨r1, r2, r3⟩ := ih (Z.filter fun v => decide (v ≠ z)) (by
          have : (Z.filter fun v => decide (v ≠ z)).length < Z.length :=
            List.length_filter_lt_length_iff_exists.2 ⟨z, hin z hz hb, by simp⟩
          omega) w hB.2.1
        (by
          intro v hv hbv
          obtain ⟨k1, k2⟩ := hstep v hbv
          exact List.mem_filter.2 ⟨hin v hv k1, by simpa using k2⟩)
        (beside_inner hB.symm he1 he2 hei) (fun v hv hbv => hun v hv (hstep v hbv).1) hn2
      refine ⟨r1, r2, ?_⟩
      intro v hv hbv
      by_cases hvz : v = z
      · subst hvz; exact ⟨hfi, hfu⟩
      · apply r3 v hv
        have hnb := hmin' v hv
        have hnw := (hwX v hv).1
        have hne := (hwX v hv).2
        rcases hb with h | h <;> rcases hbv with h' | h'
        · rcases hw with k | k
          · have h3 : z < v := by
              rcases lt_or_gt_of_ne hvz with l | l
              · exact absurd (Or.inl ⟨h'.1, l⟩) hnb
              · exact l
            have h4 : w < v := by
              rcases lt_or_gt_of_ne hne with l | l
              · exact absurd (Or.inl ⟨h3, l⟩) hnw
              · exact l
            exact Or.inl ⟨h4, h'.2⟩
          · linarith [h.2, k.1, k.2]
        · linarith [h.1, h.2, h'.1, h'.2]
        · linarith [h.1, h.2, h'.1, h'.2]
        · rcases hw with k | k
          · linarith [h.1, k.1, k.2]
          · have h3 : v < z := by
              rcases lt_or_gt_of_ne hvz with l | l
              · exact l
              · exact absurd (Or.inr ⟨l, h'.2⟩) hnb
            have h4 : v < w := by
              rcases lt_or_gt_of_ne hne with l | l
              · exact l
              · exact absurd (Or.inr ⟨l, h3⟩) hnw
            exact Or.inr ⟨h'.1, h4⟩
    · push Not at hex
      obtain ⟨r1, r2, r3⟩ := ih [] (by simp) x hx (fun z hz hb => absurd hb (hex z hz)) hc hun hn
      exact ⟨r1, r2, r3⟩

/-- A part of an edge between two cuts or ends. -/
structure Part (cut : Seg K → K → Prop) (e : Seg K) (a b : K) : Prop where
  lt : a < b
  left : a = e.1.x ∨ (cut e a ∧ e.1.x < a)
  right : b = e.2.x ∨ (cut e b ∧ b < e.2.x)
  inside : e.1.x ≤ a ∧ b ≤ e.2.x
  uncut : ∀ x, a < x → x < b → ¬ cut e x

/-- The edge above is the next one above its lower neighbour. -/
theorem neighbor_mirror (L : P.Layers up X D O) {e f : Seg K} {x : K} (hx : x ∉ X) (he : e ∈ D) (hc : covers e x) (hn : Neighbor up O e f x) :
    Neighbor (!up) D f e x := by
  have hneg : ∀ o : Seg K, hs (!up) o x = -hs up o x := by
    intro o; unfold hs; cases up <;> simp
  refine ⟨he, hc, by rw [hneg, hneg]; linarith [hn.below], ?_⟩
  intro g hg hgc hlt
  rw [hneg, hneg] at hlt ⊢
  by_contra hcon
  obtain ⟨o, ho, hoc, h1, h2⟩ := L.betweenD e he g hg x hx hc hgc (by linarith [not_le.1 hcon])
  have := hn.next o ho hoc h2
  linarith

theorem neighbor_unique (L : P.Layers up X D O) {e f f' : Seg K} {x : K} (hx : x ∉ X) (hn : Neighbor up O e f x) (hn' : Neighbor up O e f' x) : f = f' := by
  by_contra hne
  have h1 := hn.next f' hn'.mem hn'.covers hn'.below
  have h2 := hn'.next f hn.mem hn.covers hn.below
  exact L.differ f f' (Or.inr hn.mem) (Or.inr hn'.mem) hne x hx hn.covers hn'.covers (le_antisymm h2 h1)

/-- The part of the neighbour below a part of an edge. -/
theorem part_below (hP : P.Sound) (L : P.Layers up X D O) (L' : P.Layers (!up) X O D) {ps ps' : List (P2 K)} {cut cut' : Seg K → K → Prop}
    (C : P.Cuts up D O ps cut) (C' : P.Cuts (!up) O D ps' cut') {e f : Seg K} (he : e ∈ D) {a b x : K} (hp : Part cut e a b) (ha : a ∈ X) (hb : b ∈ X)
    (hx : x ∉ X) (hax : a < x) (hxb : x < b) (hn : Neighbor up O e f x) : Part cut' f a b := by
  have hc : covers e x := ⟨hp.inside.1.trans hax.le, hxb.le.trans hp.inside.2⟩
  obtain ⟨hfr, hf1, hf2⟩ := L.right f (Or.inr hn.mem)
  obtain ⟨her, he1, he2⟩ := L.right e (Or.inl he)
  have walk : ∀ y, y ∉ X → a < y → y < b → Neighbor up O e f y ∧ ∀ z ∈ X, Btw x y z → inner f z ∧ ¬ cut' f z := by
    intro y hy hay hyb
    have hin : ∀ z, Btw x y z → a < z ∧ z < b := by
      rintro z (⟨h1, h2⟩ | ⟨h1, h2⟩)
      · exact ⟨hax.trans h1, h2.trans hyb⟩
      · exact ⟨hay.trans h1, h2.trans hxb⟩
    obtain ⟨-, r1, r2⟩ := neighbor_walk hP L C C' he hy X.length X le_rfl x hx (fun z hz _ => hz) hc
      (fun z hz hbz => by
        obtain ⟨h1, h2⟩ := hin z hbz
        exact ⟨⟨lt_of_le_of_lt hp.inside.1 h1, lt_of_lt_of_le h2 hp.inside.2⟩, hp.uncut z h1 h2⟩) hn
    exact ⟨r1, r2⟩
  have hmid : ∀ z ∈ X, a < z → z < b → inner f z ∧ ¬ cut' f z := by
    intro z hz h1 h2
    rcases lt_trichotomy x z with h | h | h
    · obtain ⟨y, hy1, hy2⟩ := exists_behind X (ne_of_lt h2)
      rcases hy1 with k | k
      · have hyX : y ∉ X := fun hm => (hy2 y hm).2 rfl
        exact (walk y hyX (h1.trans k.1) k.2).2 z hz (Or.inl ⟨h, k.1⟩)
      · exact absurd (k.1.trans k.2) (not_lt.2 h2.le)
    · exact absurd (h ▸ hz) hx
    · obtain ⟨y, hy1, hy2⟩ := exists_behind X (ne_of_gt h1)
      rcases hy1 with k | k
      · exact absurd (k.1.trans k.2) (not_lt.2 h1.le)
      · have hyX : y ∉ X := fun hm => (hy2 y hm).2 rfl
        exact (walk y hyX k.1 (k.2.trans h2)).2 z hz (Or.inr ⟨k.2, h⟩)
  have hfa : f.1.x ≤ a := by
    by_contra hcon
    have hlt : f.1.x < b := lt_of_le_of_lt hn.covers.1 hxb
    exact absurd (hmid _ hf1 (not_le.1 hcon) hlt).1.1 (lt_irrefl _)
  have hfb : b ≤ f.2.x := by
    by_contra hcon
    have hlt : a < f.2.x := lt_of_lt_of_le hax hn.covers.2
    exact absurd (hmid _ hf2 hlt (not_le.1 hcon)).1.2 (lt_irrefl _)
  -- the two ends
  have hend : ∀ z y, z ∈ X → y ∉ X → z ≠ y → (∀ w, Btw z y w → a < w ∧ w < b) → inner f z → ¬ cut' f z → inner e z ∧ ¬ cut e z := by
    intro z y hz hyX hne hin hi hu
    obtain ⟨x1, h1, h1'⟩ := exists_behind X hne
    obtain ⟨q, hq⟩ : ∃ q, Btw z (2 * z - y) q ∧ ∀ v ∈ X, ¬ Btw z q v ∧ v ≠ q :=
      exists_behind X (by intro h; apply hne; linarith)
    have hB : Beside X z x1 q := by
      refine ⟨fun h => (h1' x1 h).2 rfl, fun h => (hq.2 q h).2 rfl, ?_⟩
      rcases h1 with k | k
      · have hq1 : q < z := by rcases hq.1 with l | l <;> linarith [l.1, l.2, k.1, k.2]
        refine Or.inr ⟨hq1, k.1, ?_⟩
        intro v hv l1 l2
        by_contra hvz
        rcases lt_or_gt_of_ne hvz with m | m
        · exact (hq.2 v hv).1 (Or.inr ⟨l1, m⟩)
        · exact (h1' v hv).1 (Or.inl ⟨m, l2⟩)
      · have hq1 : z < q := by rcases hq.1 with l | l <;> linarith [l.1, l.2, k.1, k.2]
        refine Or.inl ⟨k.2, hq1, ?_⟩
        intro v hv l1 l2
        by_contra hvz
        rcases lt_or_gt_of_ne hvz with m | m
        · exact (h1' v hv).1 (Or.inr ⟨l1, m⟩)
        · exact (hq.2 v hv).1 (Or.inl ⟨m, l2⟩)
    have hx1X : x1 ∉ X := hB.1
    obtain ⟨g1, g2⟩ := hin x1 h1
    have hn1 := (walk x1 hx1X g1 g2).1
    have hc1 : covers e x1 := ⟨hp.inside.1.trans g1.le, g2.le.trans hp.inside.2⟩
    have hm1 := neighbor_mirror L hx1X he hc1 hn1
    obtain ⟨p1, p2⟩ := neighbor_persist hP L' C' hB hz hn.mem hi hu hm1
    have := neighbor_uncut hP L' (by rw [Bool.not_not]; exact C) hB hz hn.mem hi p1 hm1 p2
    exact ⟨p1, this⟩
  refine ⟨hp.lt, ?_, ?_, ⟨hfa, hfb⟩, ?_⟩
  · by_contra hcon
    push Not at hcon
    have hlt : f.1.x < a := lt_of_le_of_ne hfa (Ne.symm hcon.1)
    obtain ⟨k1, k2⟩ := hend a x ha hx hax.ne (by
      rintro w (⟨l1, l2⟩ | ⟨l1, l2⟩)
      · exact ⟨l1, l2.trans hxb⟩
      · linarith) ⟨hlt, lt_of_lt_of_le hp.lt hfb⟩ (fun hcut => absurd (hcon.2 hcut) (not_le.2 hlt))
    rcases hp.left with h | h
    · exact absurd k1.1 (by rw [h]; exact lt_irrefl _)
    · exact k2 h.1
  · by_contra hcon
    push Not at hcon
    have hlt : b < f.2.x := lt_of_le_of_ne hfb hcon.1
    obtain ⟨k1, k2⟩ := hend b x hb hx hxb.ne' (by
      rintro w (⟨l1, l2⟩ | ⟨l1, l2⟩)
      · linarith
      · exact ⟨hax.trans l1, l2⟩) ⟨lt_of_le_of_lt hfa hp.lt, hlt⟩ (fun hcut => absurd (hcon.2 hcut) (not_le.2 hlt))
    rcases hp.right with h | h
    · exact absurd k1.2 (by rw [h]; exact lt_irrefl _)
    · exact k2 h.1
  · intro z h1 h2 hcut
    by_cases hz : z ∈ X
    · exact (hmid z hz h1 h2).2 hcut
    · obtain ⟨p, hps, hpx, -⟩ := C'.seen f z hcut
      obtain ⟨d, hd, h⟩ := C'.ends p hps
      obtain ⟨-, d1, d2⟩ := L.right d (Or.inl hd)
      apply hz
      rw [← hpx]
      rcases h with rfl | rfl
      · exact d1
      · exact d2

end
end QuESo.Plane
