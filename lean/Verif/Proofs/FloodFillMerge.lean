import Verif.Proofs.FloodFillParts

/-! # Merging of groups: connected components of the neighbour relation between groups -/
namespace QuESo.Flood
open QuESo.Grid QuESo.Spec

abbrev Item := Nat × Group × Bnd

/-- the test of `GroupFill` between two groups -/
def relI (n : V3 Nat) (pd : Nat) (a b : Group × Bnd) : Prop :=
  ((a.1.part : Int) - (b.1.part : Int)).natAbs ≤ 1 ∧ areNeighbours n pd a.2 b.2 = true

instance (n : V3 Nat) (pd : Nat) (a b : Group × Bnd) : Decidable (relI n pd a b) := by unfold relI; infer_instance

def cellsOf (C : List Item) : List Nat := C.flatMap (fun x => x.2.1.cells)
def countOf (C : List Item) : Int := (C.map (fun x => x.2.1.count)).sum
def idx (C : List Item) : List Nat := C.map (·.1)

theorem joinStep_spec (n : V3 Nat) (pd : Nat) (cur : Group × Bnd) (L : List Item) (hL : (idx L).Nodup)
    (visited : List Nat) (m : Group) :
    ∃ new : List Item, (∀ x, x ∈ new ↔ x ∈ L ∧ x.1 ∉ visited ∧ relI n pd cur x.2) ∧ (idx new).Nodup ∧
      joinStep n pd cur L visited m =
        ((idx new).reverse ++ visited, idx new, ⟨m.part, m.cells ++ cellsOf new, m.count + countOf new⟩) := by
  induction L generalizing visited m with
  | nil => exact ⟨[], by simp, by simp [idx], by simp [joinStep, idx, cellsOf, countOf]⟩
  | cons y L ih =>
    obtain ⟨i, g, b⟩ := y
    simp only [idx, List.map_cons, List.nodup_cons] at hL
    obtain ⟨hi, hL⟩ := hL
    have hne : ∀ x ∈ L, x.1 ≠ i := fun x hx e => hi (List.mem_map.2 ⟨x, hx, e⟩)
    by_cases hc : i ∉ visited ∧ relI n pd cur (g, b)
    · obtain ⟨new, h1, h2, h3⟩ := ih hL (i :: visited) ⟨m.part, m.cells ++ g.cells, m.count + g.count⟩
      refine ⟨(i, g, b) :: new, ?_, ?_, ?_⟩
      · intro x
        simp only [List.mem_cons, h1]
        constructor
        · rintro (rfl | ⟨a, a1, a2⟩)
          · exact ⟨Or.inl rfl, hc⟩
          · exact ⟨Or.inr a, fun h => a1 (Or.inr h), a2⟩
        · rintro ⟨rfl | a, a1, a2⟩
          · exact Or.inl rfl
          · exact Or.inr ⟨a, by rintro (h | h); exacts [hne x a h, a1 h], a2⟩
      · simp only [idx, List.map_cons, List.nodup_cons]
        refine ⟨?_, h2⟩
        intro h
        obtain ⟨x, hx, e⟩ := List.mem_map.1 h
        exact ((h1 x).1 hx).2.1 (by simp [e])
      · have hcond : i ∉ visited ∧ ((cur.1.part : Int) - (g.part : Int)).natAbs ≤ 1 ∧ areNeighbours n pd cur.2 b = true := hc
        rw [joinStep, if_pos hcond, h3]
        simp [idx, cellsOf, countOf]
        ring
    · obtain ⟨new, h1, h2, h3⟩ := ih hL visited m
      refine ⟨new, ?_, h2, ?_⟩
      · intro x
        rw [h1]
        simp only [List.mem_cons]
        constructor
        · rintro ⟨a, a1, a2⟩
          exact ⟨Or.inr a, a1, a2⟩
        · rintro ⟨rfl | a, a1, a2⟩
          · exact absurd ⟨a1, a2⟩ hc
          · exact ⟨a, a1, a2⟩
      · have hcond : ¬ (i ∉ visited ∧ ((cur.1.part : Int) - (g.part : Int)).natAbs ≤ 1 ∧ areNeighbours n pd cur.2 b = true) := hc
        rw [joinStep, if_neg hcond, h3]

/-- one step between groups of the list -/
def Step (n : V3 Nat) (pd : Nat) (items : List Item) (x y : Item) : Prop := y ∈ items ∧ relI n pd x.2 y.2

abbrev Conn (n : V3 Nat) (pd : Nat) (items : List Item) := Relation.ReflTransGen (Step n pd items)

structure GLInv (n : V3 Nat) (pd : Nat) (items : List Item) (x0 : Item) (V0 : List Nat) (stack visited : List Nat)
    (m : Group) (C : List Item) : Prop where
  vis : ∀ k, k ∈ visited ↔ k ∈ V0 ∨ k ∈ idx C
  vnd : visited.Nodup
  dis : ∀ x ∈ C, x.1 ∉ V0
  cnd : (idx C).Nodup
  sub : ∀ x ∈ C, x ∈ items
  cells : m.cells = cellsOf C
  count : m.count = countOf C
  stk : ∀ k ∈ stack, k ∈ idx C
  closed : ∀ x ∈ C, x.1 ∉ stack → ∀ y ∈ items, relI n pd x.2 y.2 → y.1 ∈ visited
  conn : ∀ x ∈ C, Conn n pd items x0 x
  root : x0 ∈ C

theorem idx_lt {items : List Item} (hidx : ∀ (k : Nat) x, items[k]? = some x → x.1 = k) {x : Item} (hx : x ∈ items) :
    x.1 < items.length ∧ items[x.1]? = some x := by
  obtain ⟨k, hk⟩ := List.mem_iff_getElem?.1 hx
  have := hidx k x hk
  rw [this]
  exact ⟨(List.getElem?_eq_some_iff.1 hk).1, hk⟩

theorem idx_nodup {items : List Item} (hidx : ∀ (k : Nat) x, items[k]? = some x → x.1 = k) : (idx items).Nodup := by
  unfold idx
  rw [List.nodup_iff_getElem?_ne_getElem?]
  intro i j hij hj e
  rw [List.length_map] at hj
  rw [List.getElem?_map, List.getElem?_map, List.getElem?_eq_getElem hj, List.getElem?_eq_getElem (by omega)] at e
  simp only [Option.map_some, Option.some.injEq] at e
  rw [hidx i _ (List.getElem?_eq_getElem (by omega)), hidx j _ (List.getElem?_eq_getElem hj)] at e
  omega

theorem groupLoop_spec {n : V3 Nat} {pd : Nat} {items : List Item}
    (hidx : ∀ (k : Nat) x, items[k]? = some x → x.1 = k) (x0 : Item) (V0 : List Nat) (hV0 : ∀ k ∈ V0, k < items.length)
    (fuel : Nat) : ∀ (stack visited : List Nat) (m : Group) (C : List Item),
    GLInv n pd items x0 V0 stack visited m C → stack.length + (items.length - visited.length) ≤ fuel →
    ∃ visited' m' C', groupLoop n pd items fuel stack visited m = some (visited', m') ∧
      GLInv n pd items x0 V0 [] visited' m' C' := by
  have hvl : ∀ stack visited m C, GLInv n pd items x0 V0 stack visited m C → visited.length ≤ items.length := by
    intro stack visited m C h
    have : visited ⊆ List.range items.length := by
      intro k hk
      rw [List.mem_range]
      rcases (h.vis k).1 hk with hk | hk
      · exact hV0 k hk
      · obtain ⟨x, hx, rfl⟩ := List.mem_map.1 hk
        exact (idx_lt hidx (h.sub x hx)).1
    simpa using (List.subperm_of_subset h.vnd this).length_le
  induction fuel with
  | zero =>
    intro stack visited m C h hf
    have : stack = [] := List.length_eq_zero_iff.1 (by omega)
    subst this
    exact ⟨visited, m, C, rfl, h⟩
  | succ fuel ih =>
    intro stack visited m C h hf
    cases stack with
    | nil => exact ⟨visited, m, C, rfl, h⟩
    | cons i stack =>
      obtain ⟨x, hxC, rfl⟩ := List.mem_map.1 (h.stk i (by simp))
      obtain ⟨new, h1, h2, h3⟩ := joinStep_spec n pd x.2 items (idx_nodup hidx) visited m
      have hdisj : ∀ y ∈ new, y.1 ∉ idx C := fun y hy hc => ((h1 y).1 hy).2.1 ((h.vis _).2 (Or.inr hc))
      have hI : GLInv n pd items x0 V0 ((idx new).reverse ++ stack) ((idx new).reverse ++ visited)
          ⟨m.part, m.cells ++ cellsOf new, m.count + countOf new⟩ (C ++ new) := by
        refine ⟨?_, ?_, ?_, ?_, ?_, ?_, ?_, ?_, ?_, ?_, ?_⟩
        · intro k
          simp only [List.mem_append, List.mem_reverse, h.vis, idx, List.map_append]
          tauto
        · rw [List.nodup_append]
          refine ⟨List.nodup_reverse.2 h2, h.vnd, ?_⟩
          intro a ha b hb e
          subst e
          obtain ⟨y, hy, rfl⟩ := List.mem_map.1 (List.mem_reverse.1 ha)
          exact ((h1 y).1 hy).2.1 hb
        · intro y hy
          rcases List.mem_append.1 hy with hy | hy
          · exact h.dis y hy
          · exact fun hc => ((h1 y).1 hy).2.1 ((h.vis _).2 (Or.inl hc))
        · simp only [idx, List.map_append]
          rw [List.nodup_append]
          refine ⟨h.cnd, h2, ?_⟩
          intro a ha b hb e
          subst e
          obtain ⟨y, hy, rfl⟩ := List.mem_map.1 hb
          exact hdisj y hy ha
        · intro y hy
          rcases List.mem_append.1 hy with hy | hy
          · exact h.sub y hy
          · exact ((h1 y).1 hy).1
        · simp [cellsOf, h.cells]
        · simp [countOf, h.count]
        · intro k hk
          simp only [idx, List.map_append, List.mem_append] at hk ⊢
          rcases hk with hk | hk
          · exact Or.inr (List.mem_reverse.1 hk)
          · exact Or.inl (h.stk k (List.mem_cons_of_mem _ hk))
        · intro y hy hns z hz hr
          simp only [List.mem_append, List.mem_reverse, not_or] at hns
          rcases List.mem_append.1 hy with hy | hy
          · by_cases hyx : y.1 = x.1
            · have : y = x := by
                have a := (idx_lt hidx (h.sub y hy)).2
                have b := (idx_lt hidx (h.sub x hxC)).2
                rw [hyx, b] at a
                exact (Option.some.inj a).symm
              subst this
              by_cases hzv : z.1 ∈ visited
              · exact List.mem_append_right _ hzv
              · exact List.mem_append_left _ (List.mem_reverse.2 (List.mem_map.2 ⟨z, (h1 z).2 ⟨hz, hzv, hr⟩, rfl⟩))
            · refine List.mem_append_right _ (h.closed y hy ?_ z hz hr)
              simp only [List.mem_cons, not_or]
              exact ⟨hyx, hns.2⟩
          · exact absurd (List.mem_map.2 ⟨y, hy, rfl⟩) hns.1
        · intro y hy
          rcases List.mem_append.1 hy with hy | hy
          · exact h.conn y hy
          · exact (h.conn x hxC).tail ⟨((h1 y).1 hy).1, ((h1 y).1 hy).2.2⟩
        · exact List.mem_append_left _ h.root
      obtain ⟨v', m', C', e, hI'⟩ := ih _ _ _ _ hI (by
        have := hvl _ _ _ _ hI
        simp only [List.length_append, List.length_reverse, List.length_cons] at *
        omega)
      refine ⟨v', m', C', ?_, hI'⟩
      rw [groupLoop, (idx_lt hidx (h.sub x hxC)).2]
      simp only [h3]
      exact e

/-- the merged groups with their constituents -/
structure MSpec (n : V3 Nat) (pd : Nat) (items : List Item) (V : List Nat) (ms : List Group) (Cs : List (List Item)) :
    Prop where
  mat : List.Forall₂ (fun (C : List Item) (m : Group) => m.cells = cellsOf C ∧ m.count = countOf C) Cs ms
  nd : (idx Cs.flatten).Nodup
  sub : ∀ y, y ∈ Cs.flatten ↔ y ∈ items ∧ y.1 ∉ V
  comp : ∀ C ∈ Cs, ∃ x0 ∈ C, ∀ y ∈ items, (y ∈ C ↔ Conn n pd items x0 y)

theorem closed_conn {n : V3 Nat} {pd : Nat} {items : List Item} (S : Item → Prop)
    (hS : ∀ x y, S x → y ∈ items → relI n pd x.2 y.2 → S y) {x y : Item} (hx : S x) (h : Conn n pd items x y) : S y := by
  induction h with
  | refl => exact hx
  | tail _ h2 ih => exact hS _ _ ih h2.1 h2.2

theorem mergeLoop_spec {n : V3 Nat} {pd : Nat} {items : List Item}
    (hidx : ∀ (k : Nat) x, items[k]? = some x → x.1 = k)
    (hsym : ∀ x ∈ items, ∀ y ∈ items, relI n pd x.2 y.2 → relI n pd y.2 x.2)
    (fuel : Nat) (hf : items.length ≤ fuel) (L pre : List Item) (hL : items = pre ++ L) (V : List Nat)
    (hVn : V.Nodup) (hV : ∀ k ∈ V, k < items.length) (hpre : ∀ x ∈ pre, x.1 ∈ V)
    (hcl : ∀ x ∈ items, x.1 ∈ V → ∀ y ∈ items, relI n pd x.2 y.2 → y.1 ∈ V) :
    ∃ ms Cs, mergeLoop n pd items fuel L V = some ms ∧ MSpec n pd items V ms Cs := by
  induction L generalizing pre V with
  | nil =>
    refine ⟨[], [], rfl, .nil, by simp [idx], ?_, by simp⟩
    intro y
    simp only [List.flatten_nil, List.not_mem_nil, false_iff, not_and, not_not]
    intro hy
    rw [List.append_nil] at hL
    exact hpre y (hL ▸ hy)
  | cons x L ih =>
    obtain ⟨i, g, b⟩ := x
    have hxi : (i, g, b) ∈ items := by rw [hL]; simp
    have hL' : items = (pre ++ [(i, g, b)]) ++ L := by rw [hL]; simp
    by_cases hi : i ∈ V
    · obtain ⟨ms, Cs, e, h⟩ := ih (pre ++ [(i, g, b)]) hL' V hVn hV (by
        intro x hx
        rcases List.mem_append.1 hx with hx | hx
        · exact hpre x hx
        · simp at hx; subst hx; exact hi) hcl
      exact ⟨ms, Cs, by rw [mergeLoop, if_pos hi, e], h⟩
    · have h0 : GLInv n pd items (i, g, b) V [i] (i :: V) g [(i, g, b)] := by
        refine ⟨?_, List.nodup_cons.2 ⟨hi, hVn⟩, ?_, by simp [idx], ?_, by simp [cellsOf], by simp [countOf], by simp [idx], ?_, ?_, by simp⟩
        · intro k; simp [idx, or_comm]
        · intro x hx; simp at hx; subst hx; exact hi
        · intro x hx; simp at hx; subst hx; exact hxi
        · intro x hx hn; simp at hx; subst hx; simp at hn
        · intro x hx; simp at hx; subst hx; exact .refl
      have hlen : V.length ≤ items.length := by
        have : V ⊆ List.range items.length := fun k hk => List.mem_range.2 (hV k hk)
        simpa using (List.subperm_of_subset hVn this).length_le
      have hlen' : (i :: V).length ≤ items.length := by
        have : (i :: V) ⊆ List.range items.length := by
          intro k hk
          rcases List.mem_cons.1 hk with rfl | hk
          · exact List.mem_range.2 (idx_lt hidx hxi).1
          · exact List.mem_range.2 (hV k hk)
        simpa using (List.subperm_of_subset (List.nodup_cons.2 ⟨hi, hVn⟩) this).length_le
      obtain ⟨V', m, C, e1, hG⟩ := groupLoop_spec hidx (i, g, b) V hV fuel [i] (i :: V) g [(i, g, b)] h0
        (by simp only [List.length_cons, List.length_nil] at *; omega)
      -- C is closed
      have hCcl : ∀ x ∈ C, ∀ y ∈ items, relI n pd x.2 y.2 → y ∈ C := by
        intro x hx y hy hr
        have hv := hG.closed x hx (by simp) y hy hr
        rcases (hG.vis _).1 hv with hv | hv
        · exact absurd (hcl y hy hv x (hG.sub x hx) (hsym x (hG.sub x hx) y hy hr)) (hG.dis x hx)
        · obtain ⟨z, hz, e⟩ := List.mem_map.1 hv
          have a := (idx_lt hidx (hG.sub z hz)).2
          have b := (idx_lt hidx hy).2
          rw [e, b] at a
          rw [Option.some.inj a]; exact hz
      have hmemC : ∀ y ∈ items, y.1 ∈ idx C → y ∈ C := by
        intro y hy hv
        obtain ⟨z, hz, e⟩ := List.mem_map.1 hv
        have a := (idx_lt hidx (hG.sub z hz)).2
        have b := (idx_lt hidx hy).2
        rw [e, b] at a
        rw [Option.some.inj a]; exact hz
      obtain ⟨ms, Cs, e2, h⟩ := ih (pre ++ [(i, g, b)]) hL' V' hG.vnd
        (by
          intro k hk
          rcases (hG.vis k).1 hk with hk | hk
          · exact hV k hk
          · obtain ⟨z, hz, rfl⟩ := List.mem_map.1 hk
            exact (idx_lt hidx (hG.sub z hz)).1)
        (by
          intro x hx
          rcases List.mem_append.1 hx with hx | hx
          · exact (hG.vis _).2 (Or.inl (hpre x hx))
          · simp at hx; subst hx
            exact (hG.vis _).2 (Or.inr (List.mem_map.2 ⟨_, hG.root, rfl⟩)))
        (by
          intro x hx hv y hy hr
          rcases (hG.vis _).1 hv with hv | hv
          · exact (hG.vis _).2 (Or.inl (hcl x hx hv y hy hr))
          · exact (hG.vis _).2 (Or.inr (List.mem_map.2 ⟨y, hCcl x (hmemC x hx hv) y hy hr, rfl⟩)))
      refine ⟨m :: ms, C :: Cs, by rw [mergeLoop, if_neg hi, e1]; simp only [e2], .cons ⟨hG.cells, hG.count⟩ h.mat, ?_, ?_, ?_⟩
      · simp only [List.flatten_cons, idx, List.map_append]
        rw [List.nodup_append]
        refine ⟨hG.cnd, h.nd, ?_⟩
        intro a ha b' hb e
        subst e
        obtain ⟨y, hy, rfl⟩ := List.mem_map.1 hb
        exact ((h.sub y).1 hy).2 ((hG.vis _).2 (Or.inr ha))
      · intro y
        simp only [List.flatten_cons, List.mem_append, h.sub, hG.vis]
        constructor
        · rintro (hy | ⟨hy, hn⟩)
          · exact ⟨hG.sub y hy, hG.dis y hy⟩
          · exact ⟨hy, fun hc => hn (Or.inl hc)⟩
        · rintro ⟨hy, hn⟩
          by_cases hc : y.1 ∈ idx C
          · exact Or.inl (hmemC y hy hc)
          · exact Or.inr ⟨hy, by tauto⟩
      · intro D hD
        rcases List.mem_cons.1 hD with rfl | hD
        · refine ⟨_, hG.root, fun y hy => ⟨fun hyC => hG.conn y hyC, fun hc => ?_⟩⟩
          exact closed_conn (fun z => z ∈ D) (fun x y hx hy hr => hCcl x hx y hy hr) hG.root hc
        · exact h.comp D hD

/-! ## Back to groups -/

def relG (G : Geo) (n : V3 Nat) (pd : Nat) (a b : Group) : Prop :=
  ((a.part : Int) - (b.part : Int)).natAbs ≤ 1 ∧ areNeighbours n pd (bnd G n pd a) (bnd G n pd b) = true

def ConnG (G : Geo) (n : V3 Nat) (pd : Nat) (gs : List Group) : Group → Group → Prop :=
  Relation.ReflTransGen (fun a b => b ∈ gs ∧ relG G n pd a b)

theorem addVotes_part (G n pd parts g) : (addVotes G n pd parts g).part = g.part := by
  unfold addVotes; split <;> rfl

theorem addVotes_cells (G n pd parts g) : (addVotes G n pd parts g).cells = g.cells := by
  unfold addVotes; split <;> rfl

structure MergeSpec (G : Geo) (n : V3 Nat) (pd : Nat) (parts : List Partition) (gs : List Group) (ms : List Group)
    (Ls : List (List Group)) : Prop where
  mat : List.Forall₂ (fun (L : List Group) (m : Group) => m.cells = allCells L ∧
    m.count = (L.map (fun g => (addVotes G n pd parts g).count)).sum) Ls ms
  perm : Ls.flatten.Perm gs
  comp : ∀ L ∈ Ls, ∃ g0 ∈ L, ∀ g ∈ gs, (g ∈ L ↔ ConnG G n pd gs g0 g)

theorem indexed_get (G n pd parts gs) (k : Nat) (x : Item) :
    (indexed G n pd parts gs)[k]? = some x ↔ ∃ g, gs[k]? = some g ∧ x = (k, addVotes G n pd parts g, bnd G n pd g) := by
  unfold indexed
  rw [List.getElem?_map, List.getElem?_zipIdx]
  cases h : gs[k]? with
  | none => simp
  | some g => simp [eq_comm]

theorem mergeGroups_spec {G : Geo} {n : V3 Nat} {pd : Nat} {parts : List Partition} {gs : List Group} (hnd : gs.Nodup)
    (hsym : ∀ a ∈ gs, ∀ b ∈ gs, relG G n pd a b → relG G n pd b a) (fuel : Nat) (hf : gs.length ≤ fuel) :
    ∃ ms Ls, mergeGroups G n pd parts fuel gs = some ms ∧ MergeSpec G n pd parts gs ms Ls := by
  have hidx : ∀ (k : Nat) x, (indexed G n pd parts gs)[k]? = some x → x.1 = k := by
    intro k x h
    obtain ⟨g, _, rfl⟩ := (indexed_get G n pd parts gs k x).1 h
    rfl
  have hmem : ∀ x, x ∈ indexed G n pd parts gs → ∃ g, gs[x.1]? = some g ∧ x.2 = (addVotes G n pd parts g, bnd G n pd g) := by
    intro x hx
    obtain ⟨k, hk⟩ := List.mem_iff_getElem?.1 hx
    obtain ⟨g, hg, rfl⟩ := (indexed_get G n pd parts gs k x).1 hk
    exact ⟨g, hg, rfl⟩
  have hlen : (indexed G n pd parts gs).length = gs.length := by simp [indexed]
  let f : Item → Group := fun x => gs.getD x.1 ⟨0, [], 0⟩
  have hf' : ∀ x ∈ indexed G n pd parts gs, f x ∈ gs ∧ x.2 = (addVotes G n pd parts (f x), bnd G n pd (f x)) ∧ gs[x.1]? = some (f x) := by
    intro x hx
    obtain ⟨g, hg, e⟩ := hmem x hx
    have : f x = g := by simp [f, hg]
    rw [this]
    exact ⟨List.mem_of_getElem? hg, e, hg⟩
  have hrel : ∀ x ∈ indexed G n pd parts gs, ∀ y ∈ indexed G n pd parts gs, (relI n pd x.2 y.2 ↔ relG G n pd (f x) (f y)) := by
    intro x hx y hy
    obtain ⟨_, ex, _⟩ := hf' x hx
    obtain ⟨_, ey, _⟩ := hf' y hy
    rw [ex, ey]
    simp only [relI, relG, addVotes_part]
  have hinj : ∀ x ∈ indexed G n pd parts gs, ∀ y ∈ indexed G n pd parts gs, f x = f y → x = y := by
    intro x hx y hy e
    obtain ⟨_, ex, hx'⟩ := hf' x hx
    obtain ⟨_, ey, hy'⟩ := hf' y hy
    rw [← e] at hy' ey
    have h1 : x.1 = y.1 := by
      by_contra hne
      have hb : x.1 < gs.length := (List.getElem?_eq_some_iff.1 hx').1
      exact hne ((List.getElem?_inj hb hnd).1 (hx'.trans hy'.symm))
    exact Prod.ext h1 (ex.trans ey.symm)
  have hsurj : ∀ g ∈ gs, ∃ x ∈ indexed G n pd parts gs, f x = g := by
    intro g hg
    obtain ⟨k, hk⟩ := List.mem_iff_getElem?.1 hg
    refine ⟨_, List.mem_of_getElem? ((indexed_get G n pd parts gs k _).2 ⟨g, hk, rfl⟩), ?_⟩
    simp [f, hk]
  obtain ⟨ms, Cs, e, h⟩ := mergeLoop_spec (n := n) (pd := pd) hidx
    (fun x hx y hy hr => (hrel y hy x hx).2 (hsym _ (hf' x hx).1 _ (hf' y hy).1 ((hrel x hx y hy).1 hr)))
    fuel (by omega) (indexed G n pd parts gs) [] rfl [] (by simp) (by simp) (by simp) (by simp)
  have hsubC : ∀ C ∈ Cs, ∀ x ∈ C, x ∈ indexed G n pd parts gs := fun C hC x hx =>
    ((h.sub x).1 (List.mem_flatten.2 ⟨C, hC, hx⟩)).1
  have hconn1 : ∀ x y, x ∈ indexed G n pd parts gs → Conn n pd (indexed G n pd parts gs) x y → ConnG G n pd gs (f x) (f y) ∧ y ∈ indexed G n pd parts gs := by
    intro x y hx hc
    induction hc with
    | refl => exact ⟨.refl, hx⟩
    | tail _ h2 ih =>
      exact ⟨ih.1.tail ⟨(hf' _ h2.1).1, (hrel _ ih.2 _ h2.1).1 h2.2⟩, h2.1⟩
  have hconn2 : ∀ x g, x ∈ indexed G n pd parts gs → ConnG G n pd gs (f x) g → ∃ y ∈ indexed G n pd parts gs, f y = g ∧ Conn n pd (indexed G n pd parts gs) x y := by
    intro x g hx hc
    induction hc with
    | refl => exact ⟨x, hx, rfl, .refl⟩
    | tail _ h2 ih =>
      obtain ⟨y, hy, rfl, hxy⟩ := ih
      obtain ⟨z, hz, rfl⟩ := hsurj _ h2.1
      exact ⟨z, hz, rfl, hxy.tail ⟨hz, (hrel y hy z hz).2 h2.2⟩⟩
  refine ⟨ms, Cs.map (·.map f), e, ?_, ?_, ?_⟩
  · rw [List.forall₂_map_left_iff]
    have := h.mat
    clear e h
    induction this with
    | nil => exact .nil
    | @cons C m Cs ms hCm _ ih =>
      refine .cons ?_ (ih (fun D hD => hsubC D (List.mem_cons_of_mem _ hD)))
      have hC := hsubC C (by simp)
      obtain ⟨h1, h2⟩ := hCm
      constructor
      · rw [h1, cellsOf, allCells, List.flatMap_map]
        refine List.flatMap_congr fun x hx => ?_
        rw [(hf' x (hC x hx)).2.1, addVotes_cells]
      · rw [h2, countOf, List.map_map]
        refine congrArg _ (List.map_congr_left fun x hx => ?_)
        simp only [Function.comp]
        rw [(hf' x (hC x hx)).2.1]
  · have e' : (Cs.map (·.map f)).flatten = Cs.flatten.map f := by rw [List.map_flatten]
    rw [e']
    have hnd' : (Cs.flatten.map f).Nodup := by
      refine List.Nodup.map_on ?_ (List.Nodup.of_map _ h.nd)
      intro x hx y hy exy
      exact hinj x ((h.sub x).1 hx).1 y ((h.sub y).1 hy).1 exy
    refine (List.perm_ext_iff_of_nodup hnd' hnd).2 fun g => ?_
    constructor
    · intro hg
      obtain ⟨x, hx, rfl⟩ := List.mem_map.1 hg
      exact (hf' x ((h.sub x).1 hx).1).1
    · intro hg
      obtain ⟨x, hx, rfl⟩ := hsurj g hg
      exact List.mem_map.2 ⟨x, (h.sub x).2 ⟨hx, by simp⟩, rfl⟩
  · intro L hL
    obtain ⟨C, hC, rfl⟩ := List.mem_map.1 hL
    obtain ⟨x0, hx0, hc⟩ := h.comp C hC
    refine ⟨f x0, List.mem_map.2 ⟨x0, hx0, rfl⟩, fun g hg => ?_⟩
    constructor
    · intro hgl
      obtain ⟨y, hy, rfl⟩ := List.mem_map.1 hgl
      exact (hconn1 x0 y (hsubC C hC x0 hx0) ((hc y (hsubC C hC y hy)).1 hy)).1
    · intro hgc
      obtain ⟨y, hy, rfl, hxy⟩ := hconn2 x0 g (hsubC C hC x0 hx0) hgc
      exact List.mem_map.2 ⟨y, (hc y hy).2 hxy, rfl⟩

end QuESo.Flood
