import Verif.Proofs.Surface
import Verif.Proofs.PlaneSection
import Mathlib.Tactic.FieldSimp
import Mathlib.Tactic.LinearCombination

/-!
# The strips below the edges that face up are the section
-/
namespace QuESo.Plane
open QuESo.AABBTree (Fault)
open QuESo.Spec
variable {K : Type} [Field K] [LinearOrder K] [IsStrictOrderedRing K]

/-! ## Lines -/

/-- The slope of an edge. -/
def slope (e : Seg K) : K := (e.2.y - e.1.y) / (e.2.x - e.1.x)

omit [LinearOrder K] [IsStrictOrderedRing K] in
theorem height_line (e : Seg K) (a x : K) : heightOver e x = heightOver e a + slope e * (x - a) := by
  unfold heightOver slope
  ring

theorem height_mid (e : Seg K) (a b : K) : heightOver e ((a + b) / 2) = (heightOver e a + heightOver e b) / 2 := by
  rw [height_line e a ((a + b) / 2), height_line e a b]
  ring

theorem height_eq {e f : Seg K} {a b : K} (hab : a < b) (h1 : heightOver e a = heightOver f a) (h2 : heightOver e b = heightOver f b) (x : K) :
    heightOver e x = heightOver f x := by
  have hs : slope e = slope f := by
    rw [height_line e a b, height_line f a b, h1] at h2
    have h3 := add_left_cancel h2
    exact mul_right_cancel₀ (by linarith : b - a ≠ 0) h3
  rw [height_line e a x, height_line f a x, h1, hs]

theorem height_low {e : Seg K} {x l : K} (hr : e.1.x < e.2.x) (hc : covers e x) (h1 : l ≤ e.1.y) (h2 : l ≤ e.2.y) : l ≤ heightOver e x := by
  have hd : 0 < e.2.x - e.1.x := by linarith
  unfold heightOver
  have key : e.1.y + (e.2.y - e.1.y) * (x - e.1.x) / (e.2.x - e.1.x) - l =
      ((e.1.y - l) * (e.2.x - x) + (e.2.y - l) * (x - e.1.x)) / (e.2.x - e.1.x) := by
    field_simp
    ring
  have h0 : 0 ≤ ((e.1.y - l) * (e.2.x - x) + (e.2.y - l) * (x - e.1.x)) / (e.2.x - e.1.x) := by
    apply div_nonneg _ hd.le
    exact add_nonneg (mul_nonneg (by linarith) (by linarith [hc.2])) (mul_nonneg (by linarith) (by linarith [hc.1]))
  linarith

/-! ## Pieces of a polyline -/

theorem pieces_gap : ∀ (l : List (P2 K)), l.Pairwise (fun a b => a.x ≤ b.x) → ∀ u ∈ pieces l, ∀ c ∈ l, c.x ≤ u.1.x ∨ u.2.x ≤ c.x
  | [], _, u, hu, _, _ => by simp [pieces] at hu
  | [a], _, u, hu, _, _ => by simp [pieces] at hu
  | a :: b :: rest, h, u, hu, c, hc => by
    simp only [pieces] at hu
    obtain ⟨h1, h2⟩ := List.pairwise_cons.1 h
    rcases List.mem_cons.1 hu with rfl | hu'
    · rcases List.mem_cons.1 hc with rfl | hc
      · exact Or.inl le_rfl
      · rcases List.mem_cons.1 hc with rfl | hc
        · exact Or.inr le_rfl
        · exact Or.inr ((List.pairwise_cons.1 h2).1 c hc)
    · rcases List.mem_cons.1 hc with rfl | hc
      · exact Or.inl (h1 _ (pieces_mem _ _ hu').1)
      · exact pieces_gap (b :: rest) h2 u hu' c hc

theorem pieces_find : ∀ (l : List (P2 K)), l.Pairwise (fun a b => a.x ≤ b.x) → ∀ p ∈ l, ∀ q ∈ l, p.x < q.x → (∀ r ∈ l, ¬ (p.x < r.x ∧ r.x < q.x)) →
    ∃ u ∈ pieces l, u.1.x = p.x ∧ u.2.x = q.x
  | [], _, p, hp, _, _, _, _ => absurd hp List.not_mem_nil
  | [a], _, p, hp, q, hq, h, _ => by
    rw [List.mem_singleton.1 hp, List.mem_singleton.1 hq] at h
    exact absurd h (lt_irrefl _)
  | a :: b :: rest, hs, p, hp, q, hq, h, hno => by
    obtain ⟨h1, h2⟩ := List.pairwise_cons.1 hs
    simp only [pieces]
    have hqt : q ∈ b :: rest := by
      rcases List.mem_cons.1 hq with rfl | hq
      · rcases List.mem_cons.1 hp with rfl | hp
        · exact absurd h (lt_irrefl _)
        · exact absurd (h1 p hp) (not_le.2 h)
      · exact hq
    by_cases hpt : ∃ p' ∈ b :: rest, p'.x = p.x
    · obtain ⟨p', hp', hpx⟩ := hpt
      obtain ⟨u, hu, k1, k2⟩ := pieces_find (b :: rest) h2 p' hp' q hqt (by rw [hpx]; exact h)
        (fun r hr hc => hno r (List.mem_cons_of_mem _ hr) (by rw [hpx] at hc; exact hc))
      exact ⟨u, List.mem_cons_of_mem _ hu, k1.trans hpx, k2⟩
    · push Not at hpt
      have hpa : p = a := by
        rcases List.mem_cons.1 hp with rfl | hp
        · rfl
        · exact absurd rfl (hpt p hp)
      subst hpa
      refine ⟨(p, b), List.mem_cons_self, rfl, ?_⟩
      have hb1 := h1 b List.mem_cons_self
      have hb2 : p.x < b.x := lt_of_le_of_ne hb1 (Ne.symm (hpt b List.mem_cons_self))
      have hb3 : b.x ≤ q.x := by
        rcases List.mem_cons.1 hqt with rfl | hqt
        · exact le_rfl
        · exact (List.pairwise_cons.1 h2).1 q hqt
      have := hno b (List.mem_cons_of_mem _ List.mem_cons_self)
      by_contra hne
      exact this ⟨hb2, lt_of_le_of_ne hb3 hne⟩

theorem pieces_ordered : ∀ (l : List (P2 K)), l.Pairwise (fun a b => a.x ≤ b.x) → (pieces l).Pairwise fun u v => u.2.x ≤ v.1.x
  | [], _ => by simp [pieces]
  | [a], _ => by simp [pieces]
  | a :: b :: rest, h => by
    simp only [pieces]
    obtain ⟨h1, h2⟩ := List.pairwise_cons.1 h
    refine List.pairwise_cons.2 ⟨?_, pieces_ordered (b :: rest) h2⟩
    intro v hv
    have := (pieces_mem _ _ hv).1
    rcases List.mem_cons.1 this with h0 | h0
    · rw [h0]
    · exact (List.pairwise_cons.1 h2).1 _ h0

theorem pieces_width : ∀ (l : List (P2 K)) (p q : P2 K), ((pieces (p :: (l ++ [q]))).map fun u => u.2.x - u.1.x).sum = q.x - p.x
  | [], p, q => by simp [pieces]
  | a :: l, p, q => by
    rw [List.cons_append]
    simp only [pieces, List.map_cons, List.sum_cons]
    rw [pieces_width l a q]
    ring

/-- The area between an edge and a level. -/
def over (lo : K) (e : Seg K) : K := under e - lo * (e.2.x - e.1.x)

/-- A quantity of directed edges of the plane that changes its sign with the direction and adds up along lines. -/
structure Quantity (Q : P2 K → P2 K → K) : Prop where
  swap : ∀ a b, Q b a = -Q a b
  line : ∀ (a c : P2 K) (s : K), Q a c = Q a ⟨a.x + s * (c.x - a.x), a.y + s * (c.y - a.y)⟩ + Q ⟨a.x + s * (c.x - a.x), a.y + s * (c.y - a.y)⟩ c

theorem Quantity.self {Q : P2 K → P2 K → K} (h : Quantity Q) (a : P2 K) : Q a a = 0 := by
  have := h.swap a a
  linarith

theorem Quantity.back {Q : P2 K → P2 K → K} (h : Quantity Q) (a b : P2 K) : Q a a = Q a b + Q b a := by
  rw [h.self, h.swap a b]; ring

/-- Points over each other. -/
theorem Quantity.vert {Q : P2 K → P2 K → K} (h : Quantity Q) (x a b c : K) : Q ⟨x, a⟩ ⟨x, c⟩ = Q ⟨x, a⟩ ⟨x, b⟩ + Q ⟨x, b⟩ ⟨x, c⟩ := by
  by_cases hac : a = c
  · subst hac; exact h.back _ _
  · have := h.line ⟨x, a⟩ ⟨x, c⟩ ((b - a) / (c - a))
    have e : (⟨x + (b - a) / (c - a) * (x - x), a + (b - a) / (c - a) * (c - a)⟩ : P2 K) = ⟨x, b⟩ := by
      have : c - a ≠ 0 := sub_ne_zero.2 (Ne.symm hac)
      congr 1
      · ring
      · field_simp; ring
    dsimp only at this
    rwa [e] at this

/-- Points of one height. -/
theorem Quantity.hor {Q : P2 K → P2 K → K} (h : Quantity Q) (y a b c : K) : Q ⟨a, y⟩ ⟨c, y⟩ = Q ⟨a, y⟩ ⟨b, y⟩ + Q ⟨b, y⟩ ⟨c, y⟩ := by
  by_cases hac : a = c
  · subst hac; exact h.back _ _
  · have := h.line ⟨a, y⟩ ⟨c, y⟩ ((b - a) / (c - a))
    have e : (⟨a + (b - a) / (c - a) * (c - a), y + (b - a) / (c - a) * (y - y)⟩ : P2 K) = ⟨b, y⟩ := by
      have : c - a ≠ 0 := sub_ne_zero.2 (Ne.symm hac)
      congr 1
      · field_simp; ring
      · ring
    dsimp only at this
    rwa [e] at this

/-- Points on an edge. -/
theorem Quantity.on {Q : P2 K → P2 K → K} (h : Quantity Q) {e : Seg K} {p q r : P2 K} (hp : p.y = heightOver e p.x) (hq : q.y = heightOver e q.x)
    (hr : r.y = heightOver e r.x) : Q p r = Q p q + Q q r := by
  by_cases hac : p.x = r.x
  · have : p = r := by
      obtain ⟨_, _⟩ := p; obtain ⟨_, _⟩ := r
      simp only at hac hp hr ⊢
      rw [hp, hr, hac]
    subst this; exact h.back _ _
  · have := h.line p r ((q.x - p.x) / (r.x - p.x))
    have e : (⟨p.x + (q.x - p.x) / (r.x - p.x) * (r.x - p.x), p.y + (q.x - p.x) / (r.x - p.x) * (r.y - p.y)⟩ : P2 K) = q := by
      have h0 : r.x - p.x ≠ 0 := sub_ne_zero.2 (Ne.symm hac)
      obtain ⟨qx, qy⟩ := q
      simp only at hq
      rw [P2.mk.injEq]
      constructor
      · field_simp; ring
      · rw [hp, hq, hr, height_line e p.x qx, height_line e p.x r.x]
        field_simp; ring
    rwa [e] at this

/-- What is measured along edges in space. -/
theorem quantity_along {P : Params K} (hA : P.Axes) {g : V3 K → V3 K → K} (hg : EdgeQuantity g) : Quantity (P.along g) := by
  refine ⟨fun a b => hg.swap _ _, fun a c s => ?_⟩
  unfold Params.along
  have e : P.lift ⟨a.x + s * (c.x - a.x), a.y + s * (c.y - a.y)⟩ = ⟨(P.lift a).x + s * ((P.lift c).x - (P.lift a).x),
      (P.lift a).y + s * ((P.lift c).y - (P.lift a).y), (P.lift a).z + s * ((P.lift c).z - (P.lift a).z)⟩ := by
    unfold Params.lift
    rcases axes_cases hA with h | h | h | h | h | h <;> obtain ⟨_, h1, h2, h3⟩ := h <;> rw [h1, h2, h3] <;>
      apply V3.ext <;> simp [V3.set]
  rw [e]
  exact MeshUtil.edge_line hg _ _ s

theorem strips_edges {P : Params K} {s : State K} {g : V3 K → V3 K → K} (hg : EdgeQuantity g) : ∀ {es : List (Edge K)} {strips : List (List (Tri K))},
    List.Forall₂ (P.StripTris s) es strips → edgeSum g strips.flatten = P.turn * (es.map fun e => around (P.along g) (P.strip s e)).sum := by
  intro es strips h
  induction h with
  | nil => simp [edgeSum]
  | cons h1 _ ih =>
    rw [List.flatten_cons, MeshUtil.edgeSum_append, h1.edges g hg, ih, List.map_cons, List.sum_cons]
    unfold Params.along
    ring

theorem around_three (Q : P2 K → P2 K → K) (a b c : P2 K) : around Q [a, b, c] = Q a b + Q b c + Q c a := by
  simp [around, cyclicPairs]; ring

theorem around_four (Q : P2 K → P2 K → K) (a b c d : P2 K) : around Q [a, b, c, d] = Q a b + Q b c + Q c d + Q d a := by
  simp [around, cyclicPairs]; ring

theorem wall_thin {Q : P2 K → P2 K → K} (h : Quantity Q) (lo : K) {e : Seg K} (he : e.1.x = e.2.x) : wall Q lo e = 0 := by
  obtain ⟨⟨a, b⟩, ⟨c, d⟩⟩ := e
  simp only at he
  subst he
  unfold wall
  dsimp only
  rw [h.self, h.swap ⟨a, b⟩ ⟨a, d⟩, h.vert a b lo d]
  ring

theorem pieces_wall {Q : P2 K → P2 K → K} (h : Quantity Q) (lo : K) {e : Seg K} {q : P2 K} (hq : q.y = heightOver e q.x) :
    ∀ (l : List (P2 K)) (p : P2 K), p.y = heightOver e p.x → (∀ r ∈ l, r.y = heightOver e r.x) →
    ((pieces (p :: (l ++ [q]))).map (wall Q lo)).sum = wall Q lo (p, q)
  | [], p, _, _ => by simp [pieces]
  | a :: l, p, hp, hl => by
    have ha := hl a (by simp)
    rw [List.cons_append]
    simp only [pieces, List.map_cons, List.sum_cons]
    rw [pieces_wall h lo hq l a ha fun r hr => hl r (by simp [hr])]
    unfold wall
    dsimp only
    rw [h.hor lo p.x a.x q.x, h.swap p q, h.swap p a, h.swap a q, h.swap q a, h.on hp ha hq, h.swap ⟨a.x, lo⟩ a, h.swap q a]
    ring

/-- The quantity that gives areas. -/
theorem quantity_cross : Quantity fun a b : P2 K => a.x * b.y - a.y * b.x := by
  refine ⟨fun a b => by ring, fun a c s => by ring⟩

theorem around_cross (l : List (P2 K)) : around (fun a b : P2 K => a.x * b.y - a.y * b.x) l = area2 l := rfl

theorem wall_cross (lo : K) (e : Seg K) : wall (fun a b : P2 K => a.x * b.y - a.y * b.x) lo e = 2 * over lo e := by
  unfold wall over under
  ring

/-! ## Parts of the edges -/

/-- The edges `D'` are the parts of the edges `D`. -/
structure Params.Parted (P : Params K) (X : List K) (cut : Seg K → K → Prop) (D D' : List (Seg K)) : Prop where
  part : ∀ u ∈ D', ∃ e ∈ D, u.1.x ≤ u.2.x ∧ covers e u.1.x ∧ covers e u.2.x ∧ u.1.x ∈ X ∧ u.2.x ∈ X ∧ u.1.y = heightOver e u.1.x ∧
    u.2.y = heightOver e u.2.x ∧ (u.1.x < u.2.x → Part cut e u.1.x u.2.x)
  all : ∀ e ∈ D, ∀ a b, Part cut e a b → ((⟨a, heightOver e a⟩, ⟨b, heightOver e b⟩) : Seg K) ∈ D'
  nodup : (D'.filter fun u => decide (u.1.x < u.2.x)).Nodup
  wall : ∀ Q lo, Quantity Q → (D'.map (wall Q lo)).sum = (D.map (wall Q lo)).sum

theorem zip_nodup {α β : Type} {D : List α} {C : List β} (h : C.length = D.length) (hD : D.Nodup) : (D.zip C).Pairwise fun c d => c.1 ≠ d.1 := by
  have : ((D.zip C).map Prod.fst).Pairwise (· ≠ ·) := by
    rw [List.map_fst_zip (by omega)]; exact hD
  exact List.pairwise_map.1 this

theorem zip_eq {α β : Type} {D : List α} {C : List β} (h : C.length = D.length) (hD : D.Nodup) {c d : α × β} (hc : c ∈ D.zip C) (hd : d ∈ D.zip C)
    (he : c.1 = d.1) : c = d := by
  have : ((D.zip C).map Prod.fst).Nodup := by
    rw [List.map_fst_zip (by omega)]; exact hD
  exact List.inj_on_of_nodup_map this hc hd he

theorem exists_generic (X : List K) {a b : K} (h : a < b) : ∃ x, x ∉ X ∧ a < x ∧ x < b := by
  obtain ⟨w, h1, h2⟩ := exists_behind X h.ne
  refine ⟨w, fun hw => (h2 w hw).2 rfl, ?_⟩
  rcases h1 with k | k
  · exact k
  · linarith [k.1, k.2]

theorem parted_of {P : Params K} (hP : P.Sound) {up : Bool} {X : List K} {D O D' : List (Seg K)} {ps : List (P2 K)} (L : P.Layers up X D O) (hD : D.Nodup)
    (hps : ∀ p ∈ ps, ∃ f ∈ O, p = f.1 ∨ p = f.2) (hall : ∀ f ∈ O, f.1 ∈ ps ∧ f.2 ∈ ps) (h : P.CutWhereSeen up ps O D D') :
    ∃ cut, P.Cuts up D O ps cut ∧ P.Parted X cut D D' := by
  classical
  have htol := hP.tol_pos
  obtain ⟨cuts, hlen, hperm, hcuts, hcut⟩ := h
  have hmemD : ∀ c ∈ D.zip cuts, c.1 ∈ D := fun c hc => (List.of_mem_zip hc).1
  have hexC : ∀ e ∈ D, ∃ c ∈ D.zip cuts, c.1 = e := by
    intro e he
    have : e ∈ (D.zip cuts).map Prod.fst := by rw [List.map_fst_zip (by omega)]; exact he
    obtain ⟨c, hc, hce⟩ := List.mem_map.1 this
    exact ⟨c, hc, hce⟩
  have hpsX : ∀ p ∈ ps, p.x ∈ X := by
    intro p hp
    obtain ⟨f, hf, h0⟩ := hps p hp
    obtain ⟨-, f1, f2⟩ := L.right f (Or.inr hf)
    rcases h0 with rfl | rfl
    · exact f1
    · exact f2
  -- the polyline of one edge
  have hline : ∀ c ∈ D.zip cuts, (∀ q ∈ c.2, c.1.1.x < q.x ∧ q.x < c.1.2.x ∧ q.y = heightOver c.1 q.x ∧ q.x ∈ X) ∧
      (c.1.1 :: (c.2 ++ [c.1.2])).Pairwise (fun a b => a.x ≤ b.x) := by
    intro c hc
    obtain ⟨s1, s2⟩ := hcuts c hc
    have hr := (L.right c.1 (Or.inl (hmemD c hc))).1
    have hq : ∀ q ∈ c.2, c.1.1.x < q.x ∧ q.x < c.1.2.x ∧ q.y = heightOver c.1 q.x ∧ q.x ∈ X := by
      intro q hq
      obtain ⟨p, hp, hseen, rfl⟩ := s2 q hq
      have t1 := hseen.target.1
      have t2 := hseen.target.2.1
      exact ⟨by dsimp only; linarith, by dsimp only; linarith, rfl, hpsX p hp⟩
    refine ⟨hq, List.pairwise_cons.2 ⟨?_, List.pairwise_append.2 ⟨s1, List.pairwise_singleton _ _, ?_⟩⟩⟩
    · intro q hq'
      rcases List.mem_append.1 hq' with h | h
      · exact (hq q h).1.le
      · rw [List.mem_singleton.1 h]; exact hr.le
    · intro q hq' r hr'
      rw [List.mem_singleton.1 hr']
      exact (hq q hq').2.1.le
  have hon : ∀ c ∈ D.zip cuts, ∀ q ∈ c.1.1 :: (c.2 ++ [c.1.2]), covers c.1 q.x ∧ q.x ∈ X ∧ q.y = heightOver c.1 q.x := by
    intro c hc q hq
    obtain ⟨hr, x1, x2⟩ := L.right c.1 (Or.inl (hmemD c hc))
    rcases List.mem_cons.1 hq with rfl | hq
    · exact ⟨⟨le_rfl, hr.le⟩, x1, (heightOver_fst hr).symm⟩
    · rcases List.mem_append.1 hq with hq | hq
      · obtain ⟨q1, q2, q3, q4⟩ := (hline c hc).1 q hq
        exact ⟨⟨q1.le, q2.le⟩, q4, q3⟩
      · rw [List.mem_singleton.1 hq]
        exact ⟨⟨hr.le, le_rfl⟩, x2, (heightOver_snd hr).symm⟩
  refine ⟨fun e x => ∃ c ∈ D.zip cuts, c.1 = e ∧ ∃ q ∈ c.2, q.x = x, ⟨hps, hall, ?_, ?_⟩, ⟨?_, ?_, ?_, ?_⟩⟩
  · rintro e x ⟨c, hc, rfl, q, hq, rfl⟩
    obtain ⟨p, hp, hseen, rfl⟩ := (hcuts c hc).2 q hq
    exact ⟨p, hp, rfl, hseen⟩
  · intro p hp
    rcases hcut p hp with h | ⟨c, hc, hseen, hq⟩
    · exact Or.inl h
    · exact Or.inr ⟨c.1, hmemD c hc, hseen, c, hc, rfl, _, hq, rfl⟩
  · intro u hu
    obtain ⟨c, hc, hu⟩ := List.mem_flatMap.1 (hperm.mem_iff.1 hu)
    obtain ⟨m1, m2⟩ := pieces_mem _ _ hu
    obtain ⟨a1, a2, a3⟩ := hon c hc _ m1
    obtain ⟨b1, b2, b3⟩ := hon c hc _ m2
    refine ⟨c.1, hmemD c hc, pieces_sorted _ (hline c hc).2 u hu, a1, b1, a2, b2, a3, b3, ?_⟩
    intro hlt
    have hgap := pieces_gap _ (hline c hc).2 u hu
    refine ⟨hlt, ?_, ?_, ⟨a1.1, b1.2⟩, ?_⟩
    · rcases List.mem_cons.1 m1 with h | h
      · left; rw [h]
      · rcases List.mem_append.1 h with h | h
        · exact Or.inr ⟨⟨c, hc, rfl, _, h, rfl⟩, ((hline c hc).1 _ h).1⟩
        · rw [List.mem_singleton.1 h] at hlt
          exact absurd b1.2 (not_le.2 hlt)
    · rcases List.mem_cons.1 m2 with h | h
      · rw [h] at hlt
        exact absurd a1.1 (not_le.2 hlt)
      · rcases List.mem_append.1 h with h | h
        · exact Or.inr ⟨⟨c, hc, rfl, _, h, rfl⟩, ((hline c hc).1 _ h).2.1⟩
        · left; rw [List.mem_singleton.1 h]
    · rintro x h1 h2 ⟨c', hc', he, q, hq, rfl⟩
      have := zip_eq hlen hD hc' hc he
      subst this
      rcases hgap q (List.mem_cons_of_mem _ (List.mem_append_left _ hq)) with k | k
      · linarith
      · linarith
  · intro e he a b hp
    obtain ⟨c, hc, rfl⟩ := hexC e he
    have hcq : ∀ x, (∃ c' ∈ D.zip cuts, c'.1 = c.1 ∧ ∃ q ∈ c'.2, q.x = x) → ∃ q ∈ c.2, q.x = x := by
      rintro x ⟨c', hc', he, q, hq, hx⟩
      have := zip_eq hlen hD hc' hc he
      subst this
      exact ⟨q, hq, hx⟩
    have ea : ∃ p ∈ c.1.1 :: (c.2 ++ [c.1.2]), p.x = a := by
      rcases hp.left with h | ⟨h, -⟩
      · exact ⟨_, List.mem_cons_self, h.symm⟩
      · obtain ⟨q, hq, hx⟩ := hcq a h
        exact ⟨q, List.mem_cons_of_mem _ (List.mem_append_left _ hq), hx⟩
    have eb : ∃ p ∈ c.1.1 :: (c.2 ++ [c.1.2]), p.x = b := by
      rcases hp.right with h | ⟨h, -⟩
      · exact ⟨_, List.mem_cons_of_mem _ (List.mem_append_right _ (List.mem_singleton.2 rfl)), h.symm⟩
      · obtain ⟨q, hq, hx⟩ := hcq b h
        exact ⟨q, List.mem_cons_of_mem _ (List.mem_append_left _ hq), hx⟩
    obtain ⟨p, hp1, rfl⟩ := ea
    obtain ⟨q, hq1, rfl⟩ := eb
    obtain ⟨u, hu, k1, k2⟩ := pieces_find _ (hline c hc).2 p hp1 q hq1 hp.lt (by
      intro r hr ⟨r1, r2⟩
      rcases List.mem_cons.1 hr with rfl | hr
      · exact absurd hp.inside.1 (not_le.2 r1)
      · rcases List.mem_append.1 hr with hr | hr
        · exact hp.uncut r.x r1 r2 ⟨c, hc, rfl, r, hr, rfl⟩
        · rw [List.mem_singleton.1 hr] at r2
          exact absurd hp.inside.2 (not_le.2 r2))
    have hu2 := hperm.mem_iff.2 (List.mem_flatMap.2 ⟨c, hc, hu⟩)
    obtain ⟨m1, m2⟩ := pieces_mem _ _ hu
    have y1 := (hon c hc _ m1).2.2
    have y2 := (hon c hc _ m2).2.2
    have : u = (⟨p.x, heightOver c.1 p.x⟩, ⟨q.x, heightOver c.1 q.x⟩) := by
      rw [k1] at y1
      rw [k2] at y2
      obtain ⟨⟨_, _⟩, ⟨_, _⟩⟩ := u
      simp only at k1 k2 y1 y2
      subst k1 k2 y1 y2
      rfl
    rw [← this]
    exact hu2
  · rw [(hperm.filter _).nodup_iff, List.filter_flatMap, List.nodup_flatMap]
    constructor
    · intro c hc
      have := (pieces_ordered _ (hline c hc).2).filter (fun u => decide (u.1.x < u.2.x))
      refine this.imp_of_mem ?_
      intro u v hu hv huv h0
      have h1 := (List.mem_filter.1 hu).2
      simp only [decide_eq_true_eq] at h1
      subst h0
      linarith
    · refine (zip_nodup hlen hD).imp_of_mem ?_
      intro c d hc hd hne
      rw [Function.onFun, List.disjoint_left]
      intro u hu hu'
      obtain ⟨hu1, hu2⟩ := List.mem_filter.1 hu
      obtain ⟨hu1', -⟩ := List.mem_filter.1 hu'
      simp only [decide_eq_true_eq] at hu2
      obtain ⟨x, hx, h1, h2⟩ := exists_generic X hu2
      obtain ⟨m1, m2⟩ := pieces_mem _ _ hu1
      obtain ⟨m1', m2'⟩ := pieces_mem _ _ hu1'
      obtain ⟨a1, a2, a3⟩ := hon c hc _ m1
      obtain ⟨b1, b2, b3⟩ := hon c hc _ m2
      obtain ⟨a1', a2', a3'⟩ := hon d hd _ m1'
      obtain ⟨b1', b2', b3'⟩ := hon d hd _ m2'
      refine L.differ c.1 d.1 (Or.inl (hmemD c hc)) (Or.inl (hmemD d hd)) hne x hx ⟨a1.1.trans h1.le, h2.le.trans b1.2⟩ ⟨a1'.1.trans h1.le, h2.le.trans b1'.2⟩ ?_
      have := height_eq (e := c.1) (f := d.1) hu2 (by rw [← a3, ← a3']) (by rw [← b3, ← b3']) x
      unfold hs
      rw [this]
  · intro Q lo hQ
    rw [(hperm.map (wall Q lo)).sum_eq]
    have key : ∀ Z : List (Seg K × List (P2 K)), (∀ c ∈ Z, c ∈ D.zip cuts) →
        ((Z.flatMap fun c => pieces (c.1.1 :: (c.2 ++ [c.1.2]))).map (wall Q lo)).sum = (Z.map fun c => wall Q lo c.1).sum := by
      intro Z
      induction Z with
      | nil => intro _; rfl
      | cons c Z ih =>
        intro hZ
        have hc := hZ c List.mem_cons_self
        rw [List.flatMap_cons, List.map_append, List.sum_append, ih (fun d hd => hZ d (List.mem_cons_of_mem _ hd)), List.map_cons, List.sum_cons,
          pieces_wall hQ lo (heightOver_snd (L.right c.1 (Or.inl (hmemD c hc))).1).symm c.2 c.1.1 (heightOver_fst (L.right c.1 (Or.inl (hmemD c hc))).1).symm
            (fun q hq => ((hline c hc).1 q hq).2.2.1)]
    rw [key _ (fun c hc => hc)]
    have : (D.zip cuts).map (fun c => wall Q lo c.1) = ((D.zip cuts).map Prod.fst).map (wall Q lo) := by rw [List.map_map]; rfl
    rw [this, List.map_fst_zip (by omega)]

/-! ## The two layers -/

omit [IsStrictOrderedRing K] in
theorem mem_abscissas {es : List (Seg K)} {e : Seg K} (h : e ∈ es) : e.1.x ∈ abscissas es ∧ e.2.x ∈ abscissas es :=
  ⟨List.mem_flatMap.2 ⟨e, h, by simp⟩, List.mem_flatMap.2 ⟨e, h, by simp⟩⟩

theorem layers_up {P : Params K} {U N : List (Seg K)} (S : P.Section U N) : P.Layers true (abscissas (U ++ N)) U N := by
  have hin : ∀ e, e ∈ U ∨ e ∈ N → e ∈ U ++ N := fun e h => List.mem_append.2 h
  have hd := (List.nodup_append.1 S.nodup).2.2
  refine ⟨fun e he f hf => hd e he f hf, ?_, S.apart, ?_, ?_, ?_, ?_, ?_, ?_⟩
  · intro e he
    exact ⟨S.right e (hin e he), mem_abscissas (hin e he)⟩
  · intro e f he hf hne x y h1 h2 h3 h4 h
    exact S.order e (hin e he) f (hin f hf) hne x y h1 h2 h3 h4 h
  · intro e f he hf hne x hx h1 h2
    exact S.differ e (hin e he) f (hin f hf) hne x hx h1 h2
  · intro e f he hf hne x hx h1 h2
    exact S.clear e (hin e he) f (hin f hf) hne x hx h1 h2
  · intro e he f hf x h1 h2
    exact (S.limit e he f hf x h1 h2).1
  · exact S.betweenUp
  · exact S.betweenDown

theorem layers_down {P : Params K} {U N : List (Seg K)} (S : P.Section U N) : P.Layers false (abscissas (U ++ N)) N U := by
  have hin : ∀ e, e ∈ N ∨ e ∈ U → e ∈ U ++ N := fun e h => List.mem_append.2 h.symm
  have hd := (List.nodup_append.1 S.nodup).2.2
  have hneg : ∀ (e : Seg K) x, hs false e x = -heightOver e x := fun _ _ => rfl
  refine ⟨fun e he f hf => (hd f hf e he).symm, ?_, S.apart, ?_, ?_, ?_, ?_, ?_, ?_⟩
  · intro e he
    exact ⟨S.right e (hin e he), mem_abscissas (hin e he)⟩
  · intro e f he hf hne x y h1 h2 h3 h4 h
    rw [hneg, hneg] at h ⊢
    have := S.order f (hin f hf) e (hin e he) hne.symm x y h2 h1 h4 h3 (by linarith)
    linarith
  · intro e f he hf hne x hx h1 h2 h
    rw [hneg, hneg] at h
    exact S.differ e (hin e he) f (hin f hf) hne x hx h1 h2 (neg_inj.1 h)
  · intro e f he hf hne x hx h1 h2
    have := S.clear e (hin e he) f (hin f hf) hne x hx h1 h2
    rw [hneg, hneg, show -heightOver e x - -heightOver f x = -(heightOver e x - heightOver f x) by ring, abs_neg]
    exact this
  · intro e he f hf x h1 h2
    have := (S.limit f hf e he x h2 h1).1
    rw [hneg, hneg, show -heightOver e x - -heightOver f x = heightOver f x - heightOver e x by ring]
    exact this
  · intro e he g hg x hx h1 h2 h
    rw [hneg, hneg] at h
    obtain ⟨f, hf, k1, k2, k3⟩ := S.betweenDown g hg e he x hx h2 h1 (by linarith)
    exact ⟨f, hf, k1, by rw [hneg, hneg]; linarith, by rw [hneg, hneg]; linarith⟩
  · intro e he g hg x hx h1 h2 h
    rw [hneg, hneg] at h
    obtain ⟨f, hf, k1, k2, k3⟩ := S.betweenUp g hg e he x hx h2 h1 (by linarith)
    exact ⟨f, hf, k1, by rw [hneg, hneg]; linarith, by rw [hneg, hneg]; linarith⟩

/-! ## Partners -/

/-- The state after cutting. -/
structure Params.Ready (P : Params K) (U N : List (Seg K)) (cutU cutN : Seg K → K → Prop) (psU psN : List (P2 K)) (s : State K) : Prop where
  sec : P.Section U N
  cutsU : P.Cuts true U N psN cutU
  cutsN : P.Cuts false N U psU cutN
  partsU : P.Parted (abscissas (U ++ N)) cutU U (s.pos.edges.map s.pos.ends)
  partsN : P.Parted (abscissas (U ++ N)) cutN N (s.neg.edges.map s.neg.ends)
  steep : ∀ e ∈ s.pos.edges, P.Steep U N e.normal

section
variable {P : Params K} {U N : List (Seg K)} {cutU cutN : Seg K → K → Prop} {psU psN : List (P2 K)} {s : State K}

/-- An edge that counts as a partner is a part of an edge below, over the same positions. -/
theorem eligible_below (hP : P.Sound) (R : P.Ready U N cutU cutN psU psN s) {d : Seg K} (hd : d ∈ U) {a b : K} (hab : a < b) (ha : a ∈ abscissas (U ++ N))
    (hb : b ∈ abscissas (U ++ N)) (hda : covers d a) (hdb : covers d b) {n : P2 K} (hn : P.Steep U N n) {g : Edge K} (hg : g ∈ s.neg.edges)
    (he : P.Eligible s.neg ⟨a, heightOver d a⟩ ⟨b, heightOver d b⟩ n g) :
    ∃ f ∈ N, Part cutN f a b ∧ s.neg.ends g = (⟨a, heightOver f a⟩, ⟨b, heightOver f b⟩) ∧
      heightOver f ((a + b) / 2) < heightOver d ((a + b) / 2) := by
  obtain ⟨f, hf, k0, k1, k2, k3, k4, k5, k6, k7⟩ := R.partsN.part _ (List.mem_map_of_mem hg)
  unfold Params.Eligible at he
  dsimp only at he
  obtain ⟨⟨e1, e2, e3, e4⟩, he⟩ := he
  have x1 : (s.neg.ends g).1.x = a := by
    rcases R.sec.apart _ k3 a ha with h | h
    · exact h
    · rw [abs_sub_comm] at h
      exact absurd e3 (not_lt.2 h.le)
  have x2 : (s.neg.ends g).2.x = b := by
    rcases R.sec.apart _ k4 b hb with h | h
    · exact h
    · rw [abs_sub_comm] at h
      exact absurd e4 (not_lt.2 h.le)
  have x1' : (s.neg.pt g.v1).x = a := x1
  have x2' : (s.neg.pt g.v2).x = b := x2
  have y1' : (s.neg.pt g.v1).y = heightOver f a := by rw [← x1]; exact k5
  have y2' : (s.neg.pt g.v2).y = heightOver f b := by rw [← x2]; exact k6
  rw [x1] at k1
  rw [x2] at k2
  have hst := hn.2 d hd f hf a ha b hb hab hda hdb k1 k2
  have hv : ((s.neg.pt g.v1).x + (s.neg.pt g.v2).x) / 2 - (a + b) / 2 = 0 := by rw [x1', x2']; ring
  have hv2 : ((s.neg.pt g.v1).y + (s.neg.pt g.v2).y) / 2 - (heightOver d a + heightOver d b) / 2 =
      -(heightOver d ((a + b) / 2) - heightOver f ((a + b) / 2)) := by
    rw [y1', y2', height_mid, height_mid]; ring
  rw [hv, hv2, zero_mul, zero_add] at he
  have hny := hn.1
  rw [abs_mul, abs_neg, abs_of_pos hny, if_neg (not_le.2 hst)] at he
  refine ⟨f, hf, ?_, ?_, ?_⟩
  · have := k7 (by rw [x1, x2]; exact hab)
    rw [x1, x2] at this
    exact this
  · unfold Cont.ends
    refine Prod.ext ?_ ?_
    · show s.neg.pt g.v1 = ⟨a, heightOver f a⟩
      rw [← y1', ← x1']
    · show s.neg.pt g.v2 = ⟨b, heightOver f b⟩
      rw [← y2', ← x2']
  · by_contra hcon
    have := mul_nonneg (by linarith [not_lt.1 hcon] : 0 ≤ -(heightOver d ((a + b) / 2) - heightOver f ((a + b) / 2))) hny.le
    linarith [he.1]

/-- The partner of a part is the part of the neighbour. -/
theorem partner_part (hP : P.Sound) (R : P.Ready U N cutU cutN psU psN s) {d : Seg K} (hd : d ∈ U) {a b x : K} (hp : Part cutU d a b)
    (ha : a ∈ abscissas (U ++ N)) (hb : b ∈ abscissas (U ++ N)) {n : P2 K} (hn : P.Steep U N n) (hx : x ∉ abscissas (U ++ N)) (hax : a < x) (hxb : x < b) :
    (P.partner s.neg ⟨a, heightOver d a⟩ ⟨b, heightOver d b⟩ n = none ∧ ∀ f ∈ N, covers f x → ¬ heightOver f x < heightOver d x) ∨
    ∃ g f, P.partner s.neg ⟨a, heightOver d a⟩ ⟨b, heightOver d b⟩ n = some g ∧ Neighbor true N d f x ∧ Part cutN f a b ∧
      s.neg.ends g = (⟨a, heightOver f a⟩, ⟨b, heightOver f b⟩) := by
  have L := layers_up R.sec
  have L' := layers_down R.sec
  have htol := hP.tol_pos
  have hda : covers d a := ⟨hp.inside.1, hp.lt.le.trans hp.inside.2⟩
  have hdb : covers d b := ⟨hp.inside.1.trans hp.lt.le, hp.inside.2⟩
  have hdx : covers d x := ⟨hp.inside.1.trans hax.le, hxb.le.trans hp.inside.2⟩
  have hmid : a < (a + b) / 2 ∧ (a + b) / 2 < b := by have := hp.lt; constructor <;> linarith
  have cov : ∀ {f : Seg K}, Part cutN f a b → covers f a ∧ covers f b ∧ covers f x ∧ inner f ((a + b) / 2) := by
    intro f hf
    exact ⟨⟨hf.inside.1, hp.lt.le.trans hf.inside.2⟩, ⟨hf.inside.1.trans hp.lt.le, hf.inside.2⟩, ⟨hf.inside.1.trans hax.le, hxb.le.trans hf.inside.2⟩,
      ⟨lt_of_le_of_lt hf.inside.1 hmid.1, lt_of_lt_of_le hmid.2 hf.inside.2⟩⟩
  have dmid : inner d ((a + b) / 2) := ⟨lt_of_le_of_lt hp.inside.1 hmid.1, lt_of_lt_of_le hmid.2 hp.inside.2⟩
  have hup : ∀ (e : Seg K) y, hs true e y = heightOver e y := fun _ _ => rfl
  obtain ⟨c1, c2⟩ := show (∀ e, P.partner s.neg ⟨a, heightOver d a⟩ ⟨b, heightOver d b⟩ n = some e → e ∈ s.neg.edges ∧
      P.Eligible s.neg ⟨a, heightOver d a⟩ ⟨b, heightOver d b⟩ n e ∧
      ∀ f ∈ s.neg.edges, P.Eligible s.neg ⟨a, heightOver d a⟩ ⟨b, heightOver d b⟩ n f →
        s.neg.depth ⟨a, heightOver d a⟩ ⟨b, heightOver d b⟩ e ≤ s.neg.depth ⟨a, heightOver d a⟩ ⟨b, heightOver d b⟩ f) ∧
      (P.partner s.neg ⟨a, heightOver d a⟩ ⟨b, heightOver d b⟩ n = none → ∀ e ∈ s.neg.edges,
        P.Eligible s.neg ⟨a, heightOver d a⟩ ⟨b, heightOver d b⟩ n e → P.maxd ≤ s.neg.depth ⟨a, heightOver d a⟩ ⟨b, heightOver d b⟩ e) by
    have key := partnerLoop_spec s.neg ⟨a, heightOver d a⟩ ⟨b, heightOver d b⟩ n hP.zt_pos s.neg.edges 0 P.maxd none
    rcases key with ⟨h1, h2⟩ | ⟨j, f, h1, h2, h3, h4, h5⟩
    · have hpn : P.partner s.neg ⟨a, heightOver d a⟩ ⟨b, heightOver d b⟩ n = none := by unfold Params.partner; rw [h1]; rfl
      exact ⟨fun e he => by rw [hpn] at he; exact absurd he (by simp), fun _ => h2⟩
    · have hps : P.partner s.neg ⟨a, heightOver d a⟩ ⟨b, heightOver d b⟩ n = some f := by
        unfold Params.partner; rw [h1]; simpa using h2
      have hf := List.mem_of_getElem? h2
      refine ⟨fun e he => ?_, fun h => ?_⟩
      · rw [hps] at he
        cases he
        exact ⟨hf, h3, h5⟩
      · rw [hps] at h; exact absurd h (by simp)
  by_cases hex : ∃ o ∈ N, covers o x ∧ hs true o x < hs true d x
  · right
    obtain ⟨f, hf, hfc, hfd, hfmax⟩ := exists_topmost true N d x hex
    have hnb : Neighbor true N d f x := ⟨hf, hfc, hfd, hfmax⟩
    have hpf := part_below hP L L' R.cutsU R.cutsN hd hp ha hb hx hax hxb hnb
    obtain ⟨fa, fb, fx, fmid⟩ := cov hpf
    obtain ⟨g0, hg0, hg0e⟩ := List.mem_map.1 (R.partsN.all f hf a b hpf)
    have p1 : s.neg.pt g0.v1 = ⟨a, heightOver f a⟩ := congrArg Prod.fst hg0e
    have p2 : s.neg.pt g0.v2 = ⟨b, heightOver f b⟩ := congrArg Prod.snd hg0e
    have hlt : heightOver f ((a + b) / 2) < heightOver d ((a + b) / 2) :=
      order_inner L hP (Or.inr hf) (Or.inl hd) fx hdx (inner_covers fmid) (inner_covers dmid) (Or.inl fmid) hfd
    have hst := hn.2 d hd f hf a ha b hb hp.lt hda hdb fa fb
    have hgap : 0 < heightOver d ((a + b) / 2) - heightOver f ((a + b) / 2) := by linarith
    rw [abs_of_pos hgap] at hst
    have hdep : ∀ g : Edge K, ∀ f' : Seg K, s.neg.ends g = (⟨a, heightOver f' a⟩, ⟨b, heightOver f' b⟩) →
        s.neg.depth ⟨a, heightOver d a⟩ ⟨b, heightOver d b⟩ g = heightOver d ((a + b) / 2) - heightOver f' ((a + b) / 2) := by
      intro g f' h
      have q1 : s.neg.pt g.v1 = ⟨a, heightOver f' a⟩ := congrArg Prod.fst h
      have q2 : s.neg.pt g.v2 = ⟨b, heightOver f' b⟩ := congrArg Prod.snd h
      unfold Cont.depth
      rw [q1, q2, height_mid, height_mid]
    have hel : P.Eligible s.neg ⟨a, heightOver d a⟩ ⟨b, heightOver d b⟩ n g0 := by
      unfold Params.Eligible
      dsimp only
      rw [p1, p2]
      dsimp only
      have hv : ((a + b) / 2 - (a + b) / 2) * n.x + ((heightOver f a + heightOver f b) / 2 - (heightOver d a + heightOver d b) / 2) * n.y =
          -((heightOver d ((a + b) / 2) - heightOver f ((a + b) / 2)) * n.y) := by
        rw [height_mid, height_mid]; ring
      have hd2 : (heightOver d a + heightOver d b) / 2 - (heightOver f a + heightOver f b) / 2 = heightOver d ((a + b) / 2) - heightOver f ((a + b) / 2) := by
        rw [height_mid, height_mid]
      rw [hv, hd2, abs_neg, abs_of_pos (mul_pos hgap hn.1), if_neg (not_le.2 hst)]
      refine ⟨⟨hmid.1, hmid.2, ?_, ?_⟩, ?_, ?_⟩
      · rw [sub_self, abs_zero]; linarith
      · rw [sub_self, abs_zero]; linarith
      · have := mul_pos hgap hn.1; linarith
      · have := hP.zt_pos; linarith
    have hsome : ∃ g, P.partner s.neg ⟨a, heightOver d a⟩ ⟨b, heightOver d b⟩ n = some g := by
      cases hpn : P.partner s.neg ⟨a, heightOver d a⟩ ⟨b, heightOver d b⟩ n with
      | some g => exact ⟨g, rfl⟩
      | none =>
        have := c2 hpn g0 hg0 hel
        rw [hdep g0 f hg0e] at this
        have hl := (R.sec.limit d hd f hf _ (inner_covers dmid) (inner_covers fmid)).2
        rw [abs_of_pos hgap] at hl
        exact absurd hl (not_lt.2 this)
    obtain ⟨g, hg⟩ := hsome
    obtain ⟨g1, g2, g3⟩ := c1 g hg
    obtain ⟨f', hf', q1, q2, q3⟩ := eligible_below hP R hd hp.lt ha hb hda hdb hn g1 g2
    obtain ⟨fa', fb', fx', fmid'⟩ := cov q1
    have hff : f' = f := by
      by_contra hne
      have l1 : hs true f' x < hs true d x := order_generic L (Or.inr hf') (Or.inl hd) (inner_covers fmid') (inner_covers dmid) fx' hdx hx q3
      have l2 : hs true f' x < hs true f x := lt_of_le_of_ne (hfmax f' hf' fx' l1) (L.differ f' f (Or.inr hf') (Or.inr hf) hne x hx fx' fx)
      have l3 : hs true f' ((a + b) / 2) < hs true f ((a + b) / 2) :=
        order_inner L hP (Or.inr hf') (Or.inr hf) fx' fx (inner_covers fmid') (inner_covers fmid) (Or.inl fmid') l2
      rw [hup, hup] at l3
      have := g3 g0 hg0 hel
      rw [hdep g f' q2, hdep g0 f hg0e] at this
      linarith
    subst hff
    exact ⟨g, f', hg, hnb, hpf, q2⟩
  · left
    push Not at hex
    constructor
    · cases hpn : P.partner s.neg ⟨a, heightOver d a⟩ ⟨b, heightOver d b⟩ n with
      | none => rfl
      | some g =>
        obtain ⟨g1, g2, g3⟩ := c1 g hpn
        obtain ⟨f', hf', q1, q2, q3⟩ := eligible_below hP R hd hp.lt ha hb hda hdb hn g1 g2
        obtain ⟨fa', fb', fx', fmid'⟩ := cov q1
        have l1 : hs true f' x < hs true d x := order_generic L (Or.inr hf') (Or.inl hd) (inner_covers fmid') (inner_covers dmid) fx' hdx hx q3
        exact absurd l1 (not_lt.2 (hex f' hf' fx'))
    · intro f hf hfc
      exact not_lt.2 (hex f hf hfc)

/-- A part without width has no partner. -/
theorem partner_thin (hP : P.Sound) (R : P.Ready U N cutU cutN psU psN s) {A B n : P2 K} (hAB : A.x = B.x) (hA : A.x ∈ abscissas (U ++ N)) :
    P.partner s.neg A B n = none := by
  cases hpn : P.partner s.neg A B n with
  | none => rfl
  | some g =>
    have key := partnerLoop_spec s.neg A B n hP.zt_pos s.neg.edges 0 P.maxd none
    rcases key with ⟨h1, h2⟩ | ⟨j, f, h1, h2, h3, h4, h5⟩
    · unfold Params.partner at hpn; rw [h1] at hpn; exact absurd hpn (by simp)
    · have hf := List.mem_of_getElem? h2
      obtain ⟨f', hf', k0, k1, k2, k3, k4, -⟩ := R.partsN.part _ (List.mem_map_of_mem hf)
      unfold Params.Eligible at h3
      dsimp only at h3
      obtain ⟨⟨e1, e2, e3, e4⟩, -⟩ := h3
      rw [← hAB] at e1
      rcases R.sec.apart _ k3 _ hA with h | h
      · have h' : (s.neg.pt f.v1).x = A.x := h
        rw [h'] at e1
        linarith
      · rw [abs_sub_comm] at h
        exact absurd e3 (not_lt.2 h.le)

/-- What the strip below an edge is. -/
theorem strip_cases (hP : P.Sound) (R : P.Ready U N cutU cutN psU psN s) {e : Edge K} (he : e ∈ s.pos.edges) :
    P.Upright s e ∧ ∀ Q, Quantity Q → around Q (P.strip s e) = wall Q (P.lo.get P.d2) (s.pos.ends e) -
      ((P.partner s.neg (s.pos.ends e).1 (s.pos.ends e).2 e.normal).map fun g => wall Q (P.lo.get P.d2) (s.neg.ends g)).getD 0 := by
  have htol := hP.tol_pos
  have L := layers_up R.sec
  obtain ⟨d, hd, k0, k1, k2, k3, k4, k5, k6, k7⟩ := R.partsU.part _ (List.mem_map_of_mem he)
  have hlow := R.sec.low d hd
  have hdr := R.sec.right d (List.mem_append_left _ hd)
  have l1 : P.lo.get P.d2 ≤ (s.pos.ends e).1.y := by rw [k5]; exact height_low hdr k1 hlow.1 hlow.2
  have l2 : P.lo.get P.d2 ≤ (s.pos.ends e).2.y := by rw [k6]; exact height_low hdr k2 hlow.1 hlow.2
  have hnone : P.partner s.neg (s.pos.ends e).1 (s.pos.ends e).2 e.normal = none →
      P.Upright s e ∧ ∀ Q, Quantity Q → around Q (P.strip s e) = wall Q (P.lo.get P.d2) (s.pos.ends e) -
        ((P.partner s.neg (s.pos.ends e).1 (s.pos.ends e).2 e.normal).map fun g => wall Q (P.lo.get P.d2) (s.neg.ends g)).getD 0 := by
    intro h
    have h' : P.partner s.neg (s.pos.pt e.v1) (s.pos.pt e.v2) e.normal = none := h
    constructor
    · unfold Params.Upright
      dsimp only
      rw [h']
      exact ⟨k0, l1, l2⟩
    · intro Q _
      unfold Params.strip
      dsimp only
      rw [h, h']
      dsimp only
      rw [around_four]
      simp only [wall, Cont.ends, Option.map_none, Option.getD_none]
      ring
  rcases k0.lt_or_eq with hlt | heq
  · have hp := k7 hlt
    obtain ⟨x, hx, hax, hxb⟩ := exists_generic (abscissas (U ++ N)) hlt
    have hA : (s.pos.ends e).1 = ⟨(s.pos.ends e).1.x, heightOver d (s.pos.ends e).1.x⟩ := by rw [← k5]
    have hB : (s.pos.ends e).2 = ⟨(s.pos.ends e).2.x, heightOver d (s.pos.ends e).2.x⟩ := by rw [← k6]
    rcases partner_part hP R hd hp k3 k4 (R.steep e he) hx hax hxb with ⟨h1, -⟩ | ⟨g, f, h1, h2, h3, h4⟩
    · rw [← hA, ← hB] at h1
      exact hnone h1
    · rw [← hA, ← hB] at h1
      have h1' : P.partner s.neg (s.pos.pt e.v1) (s.pos.pt e.v2) e.normal = some g := h1
      have p1 : s.neg.pt g.v1 = ⟨(s.pos.ends e).1.x, heightOver f (s.pos.ends e).1.x⟩ := congrArg Prod.fst h4
      have p2 : s.neg.pt g.v2 = ⟨(s.pos.ends e).2.x, heightOver f (s.pos.ends e).2.x⟩ := congrArg Prod.snd h4
      have hf := h2.mem
      have hne : f ≠ d := (L.disjoint d hd f hf).symm
      have fa : covers f (s.pos.ends e).1.x := ⟨h3.inside.1, hlt.le.trans h3.inside.2⟩
      have fb : covers f (s.pos.ends e).2.x := ⟨h3.inside.1.trans hlt.le, h3.inside.2⟩
      have dx : covers d x := ⟨hp.inside.1.trans hax.le, hxb.le.trans hp.inside.2⟩
      have o1 : heightOver f (s.pos.ends e).1.x ≤ (s.pos.ends e).1.y := by
        rw [k5]
        exact L.order f d (Or.inr hf) (Or.inl hd) hne x _ h2.covers dx fa k1 h2.below
      have o2 : heightOver f (s.pos.ends e).2.x ≤ (s.pos.ends e).2.y := by
        rw [k6]
        exact L.order f d (Or.inr hf) (Or.inl hd) hne x _ h2.covers dx fb k2 h2.below
      constructor
      · unfold Params.Upright
        dsimp only
        rw [h1']
        dsimp only
        rw [p1, p2]
        exact ⟨k0, rfl, rfl, o1, o2⟩
      · have z1 : |heightOver f (s.pos.ends e).1.x - (s.pos.ends e).1.y| < P.tol → heightOver f (s.pos.ends e).1.x = (s.pos.ends e).1.y := by
          intro h
          rcases R.sec.ends d hd f hf _ k3 k1 fa with h' | h'
          · rw [k5]; exact h'.symm
          · rw [k5, abs_sub_comm] at h
            exact absurd h (not_lt.2 h')
        have z2 : |heightOver f (s.pos.ends e).2.x - (s.pos.ends e).2.y| < P.tol → heightOver f (s.pos.ends e).2.x = (s.pos.ends e).2.y := by
          intro h
          rcases R.sec.ends d hd f hf _ k4 k2 fb with h' | h'
          · rw [k6]; exact h'.symm
          · rw [k6, abs_sub_comm] at h
            exact absurd h (not_lt.2 h')
        intro Q hQ
        unfold Params.strip
        dsimp only
        rw [h1, h1', Option.map_some, Option.getD_some, h4]
        dsimp only
        rw [p1, p2]
        dsimp only
        generalize hfa : heightOver f (s.pos.ends e).1.x = ya at *
        generalize hfb : heightOver f (s.pos.ends e).2.x = yb at *
        simp only [Cont.ends] at *
        have e1 : s.pos.pt e.v1 = ⟨(s.pos.pt e.v1).x, (s.pos.pt e.v1).y⟩ := rfl
        have e2 : s.pos.pt e.v2 = ⟨(s.pos.pt e.v2).x, (s.pos.pt e.v2).y⟩ := rfl
        generalize (s.pos.pt e.v1).x = ax at *
        generalize (s.pos.pt e.v1).y = ay at *
        generalize (s.pos.pt e.v2).x = bx at *
        generalize (s.pos.pt e.v2).y = by' at *
        have v1 := hQ.vert ax ay ya (P.lo.get P.d2)
        have v2 := hQ.vert bx (P.lo.get P.d2) yb by'
        have sw := hQ.swap ⟨ax, ya⟩ ⟨bx, yb⟩
        split
        · rename_i h
          have := z1 h
          rw [around_three]
          simp only [wall, e1, e2]
          subst this
          rw [hQ.self] at v1
          linarith
        · split
          · rename_i h
            have := z2 h
            rw [around_three]
            simp only [wall, e1, e2]
            subst this
            rw [hQ.self] at v2
            linarith
          · rw [around_four]
            simp only [wall, e1, e2]
            linarith
  · exact hnone (partner_thin hP R heq k3)

/-- The ends of the partners. -/
def Params.matches (P : Params K) (s : State K) (e : Edge K) : Option (Seg K) :=
  (P.partner s.neg (s.pos.ends e).1 (s.pos.ends e).2 e.normal).map s.neg.ends

/-- The partners of the edges that face up are the edges that face down. -/
theorem matches_perm (hP : P.Sound) (R : P.Ready U N cutU cutN psU psN s) :
    (s.pos.edges.filterMap (P.matches s)).Perm ((s.neg.edges.map s.neg.ends).filter fun u => decide (u.1.x < u.2.x)) := by
  classical
  have L := layers_up R.sec
  have L' := layers_down R.sec
  -- the partner of an edge
  have hsome : ∀ e ∈ s.pos.edges, ∀ v, P.matches s e = some v → ∃ d ∈ U, ∃ f ∈ N, (s.pos.ends e).1.x < (s.pos.ends e).2.x ∧
      s.pos.ends e = (⟨(s.pos.ends e).1.x, heightOver d (s.pos.ends e).1.x⟩, ⟨(s.pos.ends e).2.x, heightOver d (s.pos.ends e).2.x⟩) ∧
      Part cutU d (s.pos.ends e).1.x (s.pos.ends e).2.x ∧
      v = (⟨(s.pos.ends e).1.x, heightOver f (s.pos.ends e).1.x⟩, ⟨(s.pos.ends e).2.x, heightOver f (s.pos.ends e).2.x⟩) ∧
      v ∈ s.neg.edges.map s.neg.ends ∧
      ∀ x, x ∉ abscissas (U ++ N) → (s.pos.ends e).1.x < x → x < (s.pos.ends e).2.x → Neighbor true N d f x := by
    intro e he v hv
    obtain ⟨d, hd, k0, k1, k2, k3, k4, k5, k6, k7⟩ := R.partsU.part _ (List.mem_map_of_mem he)
    rcases k0.lt_or_eq with hlt | heq
    · have hA : (s.pos.ends e).1 = ⟨(s.pos.ends e).1.x, heightOver d (s.pos.ends e).1.x⟩ := by rw [← k5]
      have hB : (s.pos.ends e).2 = ⟨(s.pos.ends e).2.x, heightOver d (s.pos.ends e).2.x⟩ := by rw [← k6]
      have hp := k7 hlt
      have hx : ∀ x, x ∉ abscissas (U ++ N) → (s.pos.ends e).1.x < x → x < (s.pos.ends e).2.x → ∃ f, Neighbor true N d f x ∧
          v = (⟨(s.pos.ends e).1.x, heightOver f (s.pos.ends e).1.x⟩, ⟨(s.pos.ends e).2.x, heightOver f (s.pos.ends e).2.x⟩) ∧
          v ∈ s.neg.edges.map s.neg.ends ∧ covers f (s.pos.ends e).1.x ∧ covers f (s.pos.ends e).2.x := by
        intro x hx hax hxb
        rcases partner_part hP R hd hp k3 k4 (R.steep e he) hx hax hxb with ⟨h1, -⟩ | ⟨g, f, h1, h2, h3, h4⟩
        · rw [← hA, ← hB] at h1
          unfold Params.matches at hv
          rw [h1] at hv
          exact absurd hv (by simp)
        · rw [← hA, ← hB] at h1
          have hg := partner_mem h1
          unfold Params.matches at hv
          rw [h1, Option.map_some, Option.some.injEq] at hv
          refine ⟨f, h2, by rw [← hv, h4], by rw [← hv]; exact List.mem_map_of_mem hg, ⟨h3.inside.1, hlt.le.trans h3.inside.2⟩,
            ⟨h3.inside.1.trans hlt.le, h3.inside.2⟩⟩
      obtain ⟨x0, hx0, hax0, hxb0⟩ := exists_generic (abscissas (U ++ N)) hlt
      obtain ⟨f, hn, hv1, hv2, fa, fb⟩ := hx x0 hx0 hax0 hxb0
      refine ⟨d, hd, f, hn.mem, hlt, by rw [← hA, ← hB], hp, hv1, hv2, ?_⟩
      intro x hx' hax hxb
      obtain ⟨f', hn', hv1', -, fa', fb'⟩ := hx x hx' hax hxb
      have hff : f = f' := by
        by_contra hne
        rw [hv1'] at hv1
        simp only [Prod.mk.injEq, P2.mk.injEq, true_and] at hv1
        refine L.differ f f' (Or.inr hn.mem) (Or.inr hn'.mem) hne x hx' ⟨fa.1.trans hax.le, hxb.le.trans fb.2⟩ ⟨fa'.1.trans hax.le, hxb.le.trans fb'.2⟩ ?_
        exact height_eq hlt hv1.1.symm hv1.2.symm x
      subst hff
      exact hn'
    · unfold Params.matches at hv
      rw [partner_thin hP R heq k3] at hv
      exact absurd hv (by simp)
  refine (List.perm_ext_iff_of_nodup ?_ R.partsN.nodup).2 ?_
  · unfold List.Nodup
    rw [List.pairwise_filterMap]
    have hnd := R.partsU.nodup
    unfold List.Nodup at hnd
    rw [List.pairwise_filter, List.pairwise_map] at hnd
    refine hnd.imp_of_mem ?_
    intro e e' he he' hne v hv v' hv' h0
    subst h0
    obtain ⟨d, hd, f, hf, a1, a2, a3, a4, a5, a6⟩ := hsome e he v hv
    obtain ⟨d', hd', f', hf', b1, b2, b3, b4, b5, b6⟩ := hsome e' he' v hv'
    have hvv := a4.symm.trans b4
    simp only [Prod.mk.injEq, P2.mk.injEq] at hvv
    obtain ⟨⟨x1, y1⟩, x2, y2⟩ := hvv
    refine hne (by simpa using a1) (by simpa using b1) ?_
    obtain ⟨x, hx, hax, hxb⟩ := exists_generic (abscissas (U ++ N)) a1
    have n1 := a6 x hx hax hxb
    have n2 := b6 x hx (by rw [← x1]; exact hax) (by rw [← x2]; exact hxb)
    have hfx : heightOver f x = heightOver f' x := height_eq a1 (by rw [y1, x1]) (by rw [y2, x2]) x
    have hff : f = f' := by
      by_contra hn
      exact L.differ f f' (Or.inr hf) (Or.inr hf') hn x hx n1.covers n2.covers hfx
    subst hff
    have cd : covers d x := ⟨a3.inside.1.trans hax.le, hxb.le.trans a3.inside.2⟩
    have cd' : covers d' x := ⟨b3.inside.1.trans (by rw [← x1]; exact hax.le), (by rw [← x2]; exact hxb.le : x ≤ (s.pos.ends e').2.x).trans b3.inside.2⟩
    have m1 := neighbor_mirror L hx hd cd n1
    have m2 := neighbor_mirror L hx hd' cd' n2
    have hdd : d = d' := neighbor_unique L' hx m1 m2
    subst hdd
    rw [a2, b2, x1, x2]
  · intro v
    rw [List.mem_filterMap, List.mem_filter]
    constructor
    · rintro ⟨e, he, hv⟩
      obtain ⟨d, hd, f, hf, a1, a2, a3, a4, a5, a6⟩ := hsome e he v hv
      refine ⟨a5, ?_⟩
      rw [a4]
      simpa using a1
    · rintro ⟨hv, hlt⟩
      simp only [decide_eq_true_eq] at hlt
      obtain ⟨f, hf, k0, k1, k2, k3, k4, k5, k6, k7⟩ := R.partsN.part _ hv
      have hp := k7 hlt
      obtain ⟨x, hx, hax, hxb⟩ := exists_generic (abscissas (U ++ N)) hlt
      have fx : covers f x := ⟨hp.inside.1.trans hax.le, hxb.le.trans hp.inside.2⟩
      obtain ⟨e0, he0, c0, h0⟩ := R.sec.above f hf x hx fx
      obtain ⟨d, hd, hdc, hdl, hdmax⟩ := exists_topmost false U f x ⟨e0, he0, c0, by show -heightOver e0 x < -heightOver f x; linarith⟩
      have hnb : Neighbor false U f d x := ⟨hd, hdc, hdl, hdmax⟩
      have hpd := part_below hP L' L R.cutsN R.cutsU hf hp k3 k4 hx hax hxb hnb
      obtain ⟨e, he, hee⟩ := List.mem_map.1 (R.partsU.all d hd _ _ hpd)
      have hn : Neighbor true N d f x := neighbor_mirror L' hx hf fx hnb
      refine ⟨e, he, ?_⟩
      have w1 : (s.pos.ends e).1 = ⟨v.1.x, heightOver d v.1.x⟩ := by rw [hee]
      have w2 : (s.pos.ends e).2 = ⟨v.2.x, heightOver d v.2.x⟩ := by rw [hee]
      unfold Params.matches
      rw [w1, w2]
      rcases partner_part hP R hd hpd k3 k4 (R.steep e he) hx hax hxb with ⟨-, h2⟩ | ⟨g, f', h1, h2, h3, h4⟩
      · exact absurd hn.below (h2 f hf fx)
      · rw [h1, Option.map_some, h4]
        have := neighbor_unique L hx hn h2
        subst this
        congr 1
        obtain ⟨⟨_, _⟩, ⟨_, _⟩⟩ := v
        simp only at k5 k6
        subst k5 k6
        rfl

/-- The ways around the strips add up to the way around the section. -/
theorem strips_wall (hP : P.Sound) (R : P.Ready U N cutU cutN psU psN s) {Q : P2 K → P2 K → K} (hQ : Quantity Q) :
    (s.pos.edges.map fun e => around Q (P.strip s e)).sum =
      (U.map (wall Q (P.lo.get P.d2))).sum - (N.map (wall Q (P.lo.get P.d2))).sum := by
  have h1 : (s.pos.edges.map fun e => around Q (P.strip s e)) = s.pos.edges.map fun e => wall Q (P.lo.get P.d2) (s.pos.ends e) -
      ((P.matches s e).map (wall Q (P.lo.get P.d2))).getD 0 := by
    apply List.map_congr_left
    intro e he
    rw [(strip_cases hP R he).2 Q hQ]
    unfold Params.matches
    rw [Option.map_map]
    rfl
  rw [h1]
  have h2 : ∀ l : List (Edge K), (l.map fun e => wall Q (P.lo.get P.d2) (s.pos.ends e) - ((P.matches s e).map (wall Q (P.lo.get P.d2))).getD 0).sum =
      ((l.map s.pos.ends).map (wall Q (P.lo.get P.d2))).sum - ((l.filterMap (P.matches s)).map (wall Q (P.lo.get P.d2))).sum := by
    intro l
    induction l with
    | nil => simp
    | cons e l ih =>
      rw [List.map_cons, List.sum_cons, ih, List.map_cons, List.map_cons, List.sum_cons, List.filterMap_cons]
      cases hm : P.matches s e with
      | none => simp only [Option.map_none, Option.getD_none]; ring
      | some v => simp only [Option.map_some, Option.getD_some, List.map_cons, List.sum_cons]; ring
  rw [h2, ((matches_perm hP R).map _).sum_eq, R.partsU.wall Q _ hQ]
  have h3 : ∀ l : List (Seg K), (∀ u ∈ l, u.1.x ≤ u.2.x) →
      ((l.filter fun u => decide (u.1.x < u.2.x)).map (wall Q (P.lo.get P.d2))).sum = (l.map (wall Q (P.lo.get P.d2))).sum := by
    intro l
    induction l with
    | nil => intro _; rfl
    | cons u l ih =>
      intro hl
      rw [List.filter_cons]
      split
      · rw [List.map_cons, List.sum_cons, ih (fun v hv => hl v (List.mem_cons_of_mem _ hv)), List.map_cons, List.sum_cons]
      · rename_i hne
        simp only [decide_eq_true_eq] at hne
        have heq : u.1.x = u.2.x := le_antisymm (hl u List.mem_cons_self) (not_lt.1 hne)
        rw [ih (fun v hv => hl v (List.mem_cons_of_mem _ hv)), List.map_cons, List.sum_cons, wall_thin hQ _ heq, zero_add]
  rw [h3 _ (fun u hu => by obtain ⟨d, -, k, -⟩ := R.partsN.part u hu; exact k), R.partsN.wall Q _ hQ]

/-- The strips together have the area of the section. -/
theorem strips_section (hP : P.Sound) (R : P.Ready U N cutU cutN psU psN s) :
    (s.pos.edges.map fun e => area2 (P.strip s e)).sum = 2 * (P.areaOver U - P.areaOver N) := by
  have := strips_wall hP R quantity_cross
  simp only [around_cross] at this
  rw [this]
  have key : ∀ l : List (Seg K), (l.map (wall (fun a b : P2 K => a.x * b.y - a.y * b.x) (P.lo.get P.d2))).sum = 2 * P.areaOver l := by
    intro l
    induction l with
    | nil => simp [Params.areaOver]
    | cons e l ih =>
      rw [List.map_cons, List.sum_cons, ih, wall_cross]
      simp only [Params.areaOver, List.map_cons, List.sum_cons, over]
      ring
  rw [key, key]
  ring

end

end QuESo.Plane
