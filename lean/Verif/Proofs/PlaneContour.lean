import Verif.Proofs.PlaneGraph
import Verif.Spec.PlaneContour

namespace QuESo.Plane
open QuESo.AABBTree (Fault)
variable {K : Type} [Field K] [LinearOrder K] [IsStrictOrderedRing K]

/-! ## The choice of the split points -/

omit [LinearOrder K] [IsStrictOrderedRing K] in
theorem heightAt_over (v1 v2 : P2 K) (x : K) : heightAt v1 v2 x = heightOver (v1, v2) x := by
  unfold heightAt heightOver
  dsimp only
  rw [div_mul_eq_mul_div]

omit [IsStrictOrderedRing K] in
theorem originDistance_spec (P : Params K) (c : Cont K) (up : Bool) (p : P2 K) : P.originDistance c up p ≤ 10 ^ 15 ∧
    (∀ f ∈ c.edges.map c.ends, P.Blocks up f p → P.originDistance c up p ≤ gap up f p) ∧
    (P.originDistance c up p = 10 ^ 15 ∨ ∃ f ∈ c.edges.map c.ends, P.Blocks up f p ∧ gap up f p = P.originDistance c up p) := by
  have key : ∀ (l : List (Edge K)) (cur : K),
      let r := l.foldl (fun cur e =>
        let v1 := c.pt e.v1
        let v2 := c.pt e.v2
        if p.x > v1.x - P.tol ∧ p.x < v2.x + P.tol ∧ v2.x ≠ v1.x then
          let h := heightAt v1 v2 p.x
          let d := if up then h - p.y else p.y - h
          if d < cur ∧ d > P.tol then d else cur
        else cur) cur
      r ≤ cur ∧ (∀ f ∈ l.map c.ends, P.Blocks up f p → r ≤ gap up f p) ∧
        (r = cur ∨ ∃ f ∈ l.map c.ends, P.Blocks up f p ∧ gap up f p = r) := by
    intro l
    induction l with
    | nil => intro cur; simp
    | cons e l ih =>
      intro cur
      have hg : (if up then heightAt (c.pt e.v1) (c.pt e.v2) p.x - p.y else p.y - heightAt (c.pt e.v1) (c.pt e.v2) p.x) =
          gap up (c.ends e) p := by
        rw [heightAt_over]; rfl
      dsimp only at ih ⊢
      rw [List.foldl_cons, hg]
      by_cases hb : P.Blocks up (c.ends e) p
      · rw [if_pos (show p.x > (c.pt e.v1).x - P.tol ∧ p.x < (c.pt e.v2).x + P.tol ∧ (c.pt e.v2).x ≠ (c.pt e.v1).x from
          ⟨hb.1, hb.2.1, fun h => hb.2.2.1 h.symm⟩)]
        by_cases hd : gap up (c.ends e) p < cur
        · rw [if_pos ⟨hd, hb.2.2.2⟩]
          obtain ⟨h1, h2, h3⟩ := ih (gap up (c.ends e) p)
          refine ⟨h1.trans hd.le, ?_, ?_⟩
          · intro f hf
            rw [List.map_cons] at hf
            rcases List.mem_cons.1 hf with rfl | hf
            · exact fun _ => h1
            · exact h2 f hf
          · right
            rcases h3 with h3 | ⟨f, hf, h4⟩
            · exact ⟨_, by simp, hb, h3.symm⟩
            · exact ⟨f, by rw [List.map_cons]; exact List.mem_cons_of_mem _ hf, h4⟩
        · rw [if_neg fun h => hd h.1]
          obtain ⟨h1, h2, h3⟩ := ih cur
          refine ⟨h1, ?_, ?_⟩
          · intro f hf
            rw [List.map_cons] at hf
            rcases List.mem_cons.1 hf with rfl | hf
            · exact fun _ => h1.trans (not_lt.1 hd)
            · exact h2 f hf
          · rcases h3 with h3 | ⟨f, hf, h4⟩
            · exact Or.inl h3
            · exact Or.inr ⟨f, by rw [List.map_cons]; exact List.mem_cons_of_mem _ hf, h4⟩
      · have hst : (if p.x > (c.pt e.v1).x - P.tol ∧ p.x < (c.pt e.v2).x + P.tol ∧ (c.pt e.v2).x ≠ (c.pt e.v1).x then
            if gap up (c.ends e) p < cur ∧ gap up (c.ends e) p > P.tol then gap up (c.ends e) p else cur
          else cur) = cur := by
          split
          · rename_i h
            rw [if_neg]
            intro h'
            exact hb ⟨h.1, h.2.1, fun h0 => h.2.2 h0.symm, h'.2⟩
          · rfl
        rw [hst]
        obtain ⟨h1, h2, h3⟩ := ih cur
        refine ⟨h1, ?_, ?_⟩
        · intro f hf
          rw [List.map_cons] at hf
          rcases List.mem_cons.1 hf with rfl | hf
          · exact fun h => absurd h hb
          · exact h2 f hf
        · rcases h3 with h3 | ⟨f, hf, h4⟩
          · exact Or.inl h3
          · exact Or.inr ⟨f, by rw [List.map_cons]; exact List.mem_cons_of_mem _ hf, h4⟩
  exact key c.edges (10 ^ 15)

theorem destLoop_choice {P : Params K} (hP : P.Sound) (c : Cont K) (up : Bool) (p : P2 K) : ∀ (l : List (Edge K)) (i : Nat) (cur : K)
    (found : Option (Nat × P2 K)),
    (P.destLoop c up p i l cur found = found ∧ ∀ e ∈ l, P.Target up (c.ends e) p → cur ≤ gap up (c.ends e) p + P.zt) ∨
    ∃ j e, P.destLoop c up p i l cur found = some (i + j, ⟨p.x, heightOver (c.ends e) p.x⟩) ∧ l[j]? = some e ∧
      P.Target up (c.ends e) p ∧ gap up (c.ends e) p + P.zt < cur ∧
      ∀ f ∈ l, P.Target up (c.ends f) p → gap up (c.ends e) p ≤ gap up (c.ends f) p + P.zt := by
  have hzt := hP.zt_pos
  intro l
  induction l with
  | nil => intro i cur found; left; exact ⟨rfl, by simp⟩
  | cons e l ih =>
    intro i cur found
    have hg : (if up then heightAt (c.pt e.v1) (c.pt e.v2) p.x - p.y else p.y - heightAt (c.pt e.v1) (c.pt e.v2) p.x) =
        gap up (c.ends e) p := by
      rw [heightAt_over]; rfl
    have step : (P.Target up (c.ends e) p ∧ gap up (c.ends e) p + P.zt < cur ∧ P.destLoop c up p i (e :: l) cur found =
          P.destLoop c up p (i + 1) l (gap up (c.ends e) p) (some (i, ⟨p.x, heightOver (c.ends e) p.x⟩))) ∨
        ((P.Target up (c.ends e) p → cur ≤ gap up (c.ends e) p + P.zt) ∧
          P.destLoop c up p i (e :: l) cur found = P.destLoop c up p (i + 1) l cur found) := by
      simp only [Params.destLoop]
      rw [hg, heightAt_over]
      by_cases hx : p.x ≥ (c.pt e.v1).x + P.tol ∧ p.x ≤ (c.pt e.v2).x - P.tol
      · rw [if_pos hx]
        by_cases hd : gap up (c.ends e) p < cur - P.zt ∧ gap up (c.ends e) p > P.tol
        · left
          rw [if_pos hd]
          refine ⟨⟨hx.1, hx.2, hd.2⟩, by linarith [hd.1], rfl⟩
        · right
          rw [if_neg hd]
          refine ⟨fun ht => ?_, rfl⟩
          by_contra hn
          exact hd ⟨by linarith [not_le.1 hn], ht.2.2⟩
      · right
        rw [if_neg hx]
        exact ⟨fun ht => absurd ⟨ht.1, ht.2.1⟩ hx, rfl⟩
    rcases step with ⟨h1, h2, h3⟩ | ⟨h1, h3⟩
    · right
      rw [h3]
      rcases ih (i + 1) (gap up (c.ends e) p) (some (i, ⟨p.x, heightOver (c.ends e) p.x⟩)) with ⟨k1, k2⟩ | ⟨j, f, k1, k2, k3, k4, k5⟩
      · refine ⟨0, e, k1, rfl, h1, h2, ?_⟩
        intro f hf hft
        rcases List.mem_cons.1 hf with rfl | hf
        · linarith
        · exact k2 f hf hft
      · refine ⟨j + 1, f, ?_, k2, k3, by linarith, ?_⟩
        · rw [k1]; congr 2; omega
        · intro g hg' hgt
          rcases List.mem_cons.1 hg' with rfl | hg'
          · linarith
          · exact k5 g hg' hgt
    · rw [h3]
      rcases ih (i + 1) cur found with ⟨k1, k2⟩ | ⟨j, f, k1, k2, k3, k4, k5⟩
      · left
        refine ⟨k1, ?_⟩
        intro f hf hft
        rcases List.mem_cons.1 hf with rfl | hf
        · exact h1 hft
        · exact k2 f hf hft
      · right
        refine ⟨j + 1, f, ?_, k2, k3, k4, ?_⟩
        · rw [k1]; congr 2; omega
        · intro g hg' hgt
          rcases List.mem_cons.1 hg' with rfl | hg'
          · linarith [h1 hgt]
          · exact k5 g hg' hgt

theorem setSplit_choice {P : Params K} (hP : P.Sound) (up : Bool) (origin dest : Cont K) (p : P2 K) :
    (P.setSplit up origin dest p = dest ∧ ∀ e ∈ dest.edges.map dest.ends, P.Target up e p → P.Hidden up (origin.edges.map origin.ends) p e) ∨
    ∃ i e, dest.edges[i]? = some e ∧ P.Seen up (origin.edges.map origin.ends) (dest.edges.map dest.ends) p (dest.ends e) ∧
      P.setSplit up origin dest p =
        { dest with edges := dest.edges.set i { e with split := e.split ++ [⟨p.x, heightOver (dest.ends e) p.x⟩] } } := by
  obtain ⟨o1, o2, o3⟩ := originDistance_spec P origin up p
  unfold Params.setSplit
  rcases destLoop_choice hP dest up p dest.edges 0 (P.originDistance origin up p) none with ⟨k1, k2⟩ | ⟨j, e, k1, k2, k3, k4, k5⟩
  · left
    rw [k1]
    refine ⟨rfl, ?_⟩
    intro f hf hft
    obtain ⟨e, he, rfl⟩ := List.mem_map.1 hf
    have := k2 e he hft
    rcases o3 with o3 | ⟨g, hg, h1, h2⟩
    · left; rw [← o3]; exact this
    · right; exact ⟨g, hg, h1, by rw [h2]; exact this⟩
  · right
    refine ⟨j, e, k2, ⟨k3, ?_, ?_⟩, ?_⟩
    · intro f hf hb
      exact lt_of_lt_of_le k4 (o2 f hf hb)
    · intro f hf hft
      obtain ⟨g, hg, rfl⟩ := List.mem_map.1 hf
      exact k5 g hg hft
    · rw [k1, Nat.zero_add]
      dsimp only
      congr 1
      obtain ⟨hlt, he⟩ := List.getElem?_eq_some_iff.1 k2
      rw [List.modify_eq_set_get _ hlt]
      simp [he]

/-- All split points of a sequence of points. -/
theorem setSplit_all {P : Params K} (hP : P.Sound) (up : Bool) (origin : Cont K) : ∀ (ps : List (P2 K)) (c : Cont K),
    let c' := ps.foldl (fun c p => P.setSplit up origin c p) c
    c'.verts = c.verts ∧ c'.edges.map c'.ends = c.edges.map c.ends ∧
    (∀ (i : Nat) (e : Edge K), c.edges[i]? = some e → ∃ sp, c'.edges[i]? = some { e with split := e.split ++ sp } ∧
      ∀ q ∈ sp, ∃ p ∈ ps, P.Seen up (origin.edges.map origin.ends) (c.edges.map c.ends) p (c.ends e) ∧
        q = ⟨p.x, heightOver (c.ends e) p.x⟩) ∧
    ∀ p ∈ ps, (∀ e ∈ c.edges.map c.ends, P.Target up e p → P.Hidden up (origin.edges.map origin.ends) p e) ∨
      ∃ (i : Nat) (e e' : Edge K), c.edges[i]? = some e ∧ c'.edges[i]? = some e' ∧
        P.Seen up (origin.edges.map origin.ends) (c.edges.map c.ends) p (c.ends e) ∧ (⟨p.x, heightOver (c.ends e) p.x⟩ : P2 K) ∈ e'.split := by
  intro ps
  induction ps with
  | nil =>
    intro c
    dsimp only [List.foldl_nil]
    exact ⟨rfl, rfl, fun i e h => ⟨[], by simpa using h, by simp⟩, by simp⟩
  | cons p ps ih =>
    intro c
    dsimp only [List.foldl_cons]
    rcases setSplit_choice hP up origin c p with ⟨h1, h2⟩ | ⟨i, e, h1, h2, h3⟩
    · rw [h1]
      obtain ⟨k1, k2, k3, k4⟩ := ih c
      refine ⟨k1, k2, ?_, ?_⟩
      · intro i e he
        obtain ⟨sp, j1, j2⟩ := k3 i e he
        refine ⟨sp, j1, fun q hq => ?_⟩
        obtain ⟨r, hr, h⟩ := j2 q hq
        exact ⟨r, List.mem_cons_of_mem _ hr, h⟩
      · intro q hq
        rcases List.mem_cons.1 hq with rfl | hq
        · exact Or.inl h2
        · exact k4 q hq
    · rw [h3]
      set q : P2 K := ⟨p.x, heightOver (c.ends e) p.x⟩ with hq
      set d : Cont K := { c with edges := c.edges.set i { e with split := e.split ++ [q] } } with hd
      have hends : ∀ f, d.ends f = c.ends f := fun f => rfl
      obtain ⟨hlt, hie⟩ := List.getElem?_eq_some_iff.1 h1
      have hmap : d.edges.map d.ends = c.edges.map c.ends := by
        show (c.edges.set i _).map c.ends = _
        rw [List.map_set]
        apply List.ext_getElem?
        intro k
        rw [List.getElem?_set]
        split
        · rename_i hik
          subst hik
          rw [List.length_map, if_pos hlt, List.getElem?_map, h1]
          rfl
        · rfl
      obtain ⟨k1, k2, k3, k4⟩ := ih d
      rw [hmap] at k2 k3 k4
      have hold : ∀ (k : Nat) (f : Edge K), c.edges[k]? = some f → ∃ sp, d.edges[k]? = some { f with split := f.split ++ sp } ∧
          (sp = [] ∨ (k = i ∧ sp = [q])) := by
        intro k f hf
        by_cases hki : k = i
        · subst hki
          rw [h1] at hf
          cases hf
          refine ⟨[q], ?_, Or.inr ⟨rfl, rfl⟩⟩
          show (c.edges.set k _)[k]? = _
          rw [List.getElem?_set, if_pos rfl, if_pos hlt]
        · refine ⟨[], ?_, Or.inl rfl⟩
          show (c.edges.set i _)[k]? = _
          rw [List.getElem?_set, if_neg (Ne.symm hki), hf]
          simp
      refine ⟨k1, k2, ?_, ?_⟩
      · intro k f hf
        obtain ⟨sp, j1, j2⟩ := hold k f hf
        obtain ⟨sp', j3, j4⟩ := k3 k _ j1
        refine ⟨sp ++ sp', by rw [j3]; simp, ?_⟩
        intro r hr
        rcases List.mem_append.1 hr with hr | hr
        · rcases j2 with rfl | ⟨rfl, rfl⟩
          · simp at hr
          · rw [List.mem_singleton] at hr
            subst hr
            rw [h1] at hf
            cases hf
            exact ⟨p, List.mem_cons_self, h2, hq⟩
        · obtain ⟨t, ht, h⟩ := j4 r hr
          exact ⟨t, List.mem_cons_of_mem _ ht, h⟩
      · intro r hr
        rcases List.mem_cons.1 hr with rfl | hr
        · right
          obtain ⟨sp, j1, j2⟩ := hold i e h1
          have j1' : d.edges[i]? = some { e with split := e.split ++ [q] } := by
            show (c.edges.set i _)[i]? = _
            rw [List.getElem?_set, if_pos rfl, if_pos hlt]
          obtain ⟨sp', j3, -⟩ := k3 i _ j1'
          exact ⟨i, e, _, h1, j3, h2, by simp [hq]⟩
        · rcases k4 r hr with h | ⟨k, f, f', j1, j2, j3, j4⟩
          · exact Or.inl h
          · right
            by_cases hki : k = i
            · subst hki
              have j1' : d.edges[k]? = some { e with split := e.split ++ [q] } := by
                show (c.edges.set k _)[k]? = _
                rw [List.getElem?_set, if_pos rfl, if_pos hlt]
              rw [j1'] at j1
              cases j1
              exact ⟨k, e, f', h1, j2, j3, j4⟩
            · have : c.edges[k]? = some f := by
                have : (c.edges.set i { e with split := e.split ++ [q] })[k]? = some f := j1
                rwa [List.getElem?_set, if_neg (Ne.symm hki)] at this
              exact ⟨k, f, f', this, j2, j3, j4⟩

/-- What splitting does if it succeeds. -/
theorem splitLoop_ends {P : Params K} (hP : P.Sound) : ∀ (rest kept added : List (Edge K)) (c c' : Cont K),
    (∀ e ∈ rest, e.v1 < c.verts.length ∧ e.v2 < c.verts.length) → (∀ e ∈ kept, c.Ready e) → (∀ e ∈ added, c.Ready e) →
    P.splitLoop rest kept added c = .ok c' → c.Grown c' ∧ (∀ e ∈ c'.edges, c'.Ready e) ∧
      ∃ kept' added', c'.edges = kept ++ kept' ++ (added ++ added') ∧
        kept'.map c'.ends = ((rest.filter fun e => decide (e.split = [])).map c.ends) ∧
        added'.map c'.ends = ((rest.filter fun e => !decide (e.split = [])).flatMap fun e =>
          pieces (c.pt e.v1 :: (P.sortP e.split ++ [c.pt e.v2]))) ∧
        kept'.map (·.normal) = ((rest.filter fun e => decide (e.split = [])).map (·.normal)) ∧
        added'.map (·.normal) = ((rest.filter fun e => !decide (e.split = [])).flatMap fun e =>
          List.replicate (e.split.length + 1) e.normal) := by
  intro rest
  induction rest with
  | nil =>
    intro kept added c c' _ hk ha h
    simp only [Params.splitLoop] at h
    cases h
    refine ⟨⟨List.prefix_refl _, rfl, rfl⟩, ?_, [], [], by simp, rfl, rfl, rfl, rfl⟩
    intro e he
    rcases List.mem_append.1 he with he | he
    · exact hk e he
    · exact ha e he
  | cons e rest ih =>
    intro kept added c c' hr hk ha h
    simp only [Params.splitLoop] at h
    have hre := hr e List.mem_cons_self
    by_cases hs : e.split.length > 0
    · rw [if_pos hs] at h
      split at h
      · exact absurd h (by simp)
      have hne : ¬ e.split = [] := by intro h; rw [h] at hs; simp at hs
      have hq : P.sortP e.split ≠ [] := by
        intro h
        have := (hP.sortP e.split).length_eq
        rw [h] at this; simp at this; omega
      obtain ⟨k1, k2, k3, k4⟩ := splitPieces_spec e (P.sortP e.split) hq c hre.1 hre.2
      rw [(hP.sortP e.split).length_eq] at k4
      obtain ⟨e2, e3, kept', added', e4, e5, e6, e7, e8⟩ := ih kept (added ++ (splitPieces e (P.sortP e.split) c).2)
        (splitPieces e (P.sortP e.split) c).1 c'
        (fun f hf => ⟨lt_of_lt_of_le (hr f (List.mem_cons_of_mem _ hf)).1 k1.verts.length_le,
          lt_of_lt_of_le (hr f (List.mem_cons_of_mem _ hf)).2 k1.verts.length_le⟩)
        (fun f hf => ready_mono k1 (hk f hf))
        (by
          intro f hf
          rcases List.mem_append.1 hf with hf | hf
          · exact ready_mono k1 (ha f hf)
          · exact (k2 f hf).1)
        h
      refine ⟨k1.trans e2, e3, kept', (splitPieces e (P.sortP e.split) c).2 ++ added', by rw [e4]; simp, ?_, ?_, ?_, ?_⟩
      · rw [e5]
        simp only [List.filter_cons, hne, decide_false, Bool.false_eq_true, if_false]
        apply List.map_congr_left
        intro f hf
        have hf' := hr f (List.mem_cons_of_mem _ (List.mem_of_mem_filter hf))
        unfold Cont.ends
        rw [grown_pt k1 hf'.1, grown_pt k1 hf'.2]
      · simp only [List.filter_cons, hne, decide_false, Bool.not_false, if_true, List.flatMap_cons, List.map_append]
        rw [e6]
        congr 1
        · rw [← k3]
          apply List.map_congr_left
          intro f hf
          exact ends_mono e2 (k2 f hf).1
        · apply List.flatMap_congr
          intro f hf
          have hf' := hr f (List.mem_cons_of_mem _ (List.mem_of_mem_filter hf))
          rw [grown_pt k1 hf'.1, grown_pt k1 hf'.2]
      · rw [e7]; simp [List.filter_cons, hne]
      · simp only [List.filter_cons, hne, decide_false, Bool.not_false, if_true, List.flatMap_cons, List.map_append]
        rw [e8]
        congr 1
        rw [List.eq_replicate_iff]
        refine ⟨by simp [k4], ?_⟩
        intro x hx
        obtain ⟨f, hf, rfl⟩ := List.mem_map.1 hx
        exact (k2 f hf).2
    · rw [if_neg hs] at h
      have hnil : e.split = [] := List.length_eq_zero_iff.1 (by omega)
      obtain ⟨e2, e3, kept', added', e4, e5, e6, e7, e8⟩ := ih (kept ++ [e]) added c c'
        (fun f hf => hr f (List.mem_cons_of_mem _ hf))
        (by
          intro f hf
          rcases List.mem_append.1 hf with hf | hf
          · exact hk f hf
          · simp only [List.mem_singleton] at hf
            subst hf
            exact ⟨hre.1, hre.2, hnil⟩)
        ha h
      have hready : c.Ready e := ⟨hre.1, hre.2, hnil⟩
      refine ⟨e2, e3, e :: kept', added', by rw [e4]; simp, ?_, ?_, ?_, ?_⟩
      · simp [List.filter_cons, hnil, e5, ends_mono e2 hready]
      · rw [e6]; simp [List.filter_cons, hnil]
      · simp [List.filter_cons, hnil, e7]
      · rw [e8]; simp [List.filter_cons, hnil]

theorem filter_perm {α β : Type} (p : α → Bool) (f g : α → List β) : ∀ l : List α,
    ((l.filter p).flatMap f ++ (l.filter fun a => !p a).flatMap g).Perm (l.flatMap fun a => if p a then f a else g a) := by
  intro l
  induction l with
  | nil => simp
  | cons a l ih =>
    cases h : p a
    · simp only [List.filter_cons, h, Bool.false_eq_true, if_false, Bool.not_false, if_true, List.flatMap_cons]
      refine List.Perm.trans ?_ (ih.append_left (g a))
      rw [← List.append_assoc, ← List.append_assoc]
      exact (List.perm_append_comm).append_right _
    · simp only [List.filter_cons, h, Bool.not_true, Bool.false_eq_true, if_false, if_true, List.flatMap_cons, List.append_assoc]
      exact ih.append_left (f a)

/-- Setting split points and splitting cuts the edges where they are seen. -/
theorem split_seen {P : Params K} (hP : P.Sound) (up : Bool) (origin : Cont K) (ps : List (P2 K)) {c d' : Cont K} (hw : c.WF)
    (hpl : ∀ e ∈ c.edges, e.split = []) (h : P.splitEdges (ps.foldl (fun c p => P.setSplit up origin c p) c) = .ok d') :
    P.CutWhereSeen up ps (origin.edges.map origin.ends) (c.edges.map c.ends) (d'.edges.map d'.ends) := by
  obtain ⟨k1, k2, k3, k4⟩ := setSplit_all hP up origin ps c
  have wd := splitStep_WF (fold_step hP up origin ps c) hw
  set d := ps.foldl (fun c p => P.setSplit up origin c p) c with hd
  obtain ⟨-, -, kept, added, e1, e2, e3, -, -⟩ := splitLoop_ends hP d.edges [] [] d d' wd.edges (by simp) (by simp) h
  have hlen : d.edges.length = c.edges.length := by
    have := congrArg List.length k2
    simpa using this
  have hends : ∀ f, d.ends f = c.ends f := by
    intro f
    unfold Cont.ends Cont.pt
    rw [k1]
  have hzip : (c.edges.map c.ends).zip (d.edges.map fun e => P.sortP e.split) = d.edges.map fun e => (c.ends e, P.sortP e.split) := by
    rw [← k2, List.zip_map']
    apply List.map_congr_left
    intro f _
    rw [hends]
  have hsplit : ∀ f ∈ d.edges, ∀ q ∈ f.split, ∃ p ∈ ps, P.Seen up (origin.edges.map origin.ends) (c.edges.map c.ends) p (c.ends f) ∧
      q = ⟨p.x, heightOver (c.ends f) p.x⟩ := by
    intro f hf q hq
    obtain ⟨i, hi⟩ := List.mem_iff_getElem?.1 hf
    have hic : i < c.edges.length := by
      rw [← hlen]; exact (List.getElem?_eq_some_iff.1 hi).1
    obtain ⟨sp, j1, j2⟩ := k3 i c.edges[i] (List.getElem?_eq_getElem hic)
    rw [hi] at j1
    cases j1
    rw [hpl _ (List.getElem_mem hic), List.nil_append] at hq
    exact j2 q hq
  refine ⟨d.edges.map fun e => P.sortP e.split, by simp [hlen], ?_, ?_, ?_⟩
  · rw [hzip, e1]
    simp only [List.nil_append, List.map_append, e2, e3]
    have := filter_perm (fun e : Edge K => decide (e.split = [])) (fun e => [d.ends e])
      (fun e => pieces (d.pt e.v1 :: (P.sortP e.split ++ [d.pt e.v2]))) d.edges
    rw [List.flatMap_map]
    have hm : ((d.edges.filter fun e => decide (e.split = [])).flatMap fun e => [d.ends e]) =
        (d.edges.filter fun e => decide (e.split = [])).map d.ends := by
      rw [← List.map_eq_flatMap]
    rw [hm] at this
    refine this.trans (List.Perm.of_eq ?_)
    apply List.flatMap_congr
    intro f _
    dsimp only
    split
    · rename_i h0
      rw [decide_eq_true_eq] at h0
      have : P.sortP f.split = [] := by
        rw [h0]; exact List.Perm.eq_nil (hP.sortP [])
      rw [this, hends]
      rfl
    · rw [← hends]
      rfl
  · rw [hzip]
    intro x hx
    obtain ⟨f, hf, rfl⟩ := List.mem_map.1 hx
    refine ⟨hP.sortP_sorted _, ?_⟩
    intro q hq
    exact hsplit f hf q ((hP.sortP _).mem_iff.1 hq)
  · rw [hzip]
    intro p hp
    rcases k4 p hp with h1 | ⟨i, e, e', j1, j2, j3, j4⟩
    · exact Or.inl h1
    · right
      have hee : c.ends e' = c.ends e := by
        obtain ⟨sp, j5, -⟩ := k3 i e j1
        rw [j2] at j5
        cases j5
        rfl
      refine ⟨(c.ends e', P.sortP e'.split), List.mem_map.2 ⟨e', List.mem_of_getElem? j2, rfl⟩, ?_, ?_⟩
      · rw [hee]; exact j3
      · rw [hee]; exact (hP.sortP _).mem_iff.2 j4

theorem close_seen {P : Params K} (hP : P.Sound) {s s' : State K} (w1 : s.pos.WF) (w2 : s.neg.WF) (p1 : ∀ e ∈ s.pos.edges, e.split = [])
    (p2 : ∀ e ∈ s.neg.edges, e.split = []) (h : P.close s = .ok s') :
    ∃ t, P.closeTop s = .ok t ∧
      P.CutWhereSeen false t.pos.verts (t.pos.edges.map t.pos.ends) (s.neg.edges.map s.neg.ends) (s'.neg.edges.map s'.neg.ends) ∧
      P.CutWhereSeen true s.neg.verts (s.neg.edges.map s.neg.ends) (t.pos.edges.map t.pos.ends) (s'.pos.edges.map s'.pos.ends) := by
  unfold Params.close at h
  split at h
  · exact absurd h (by simp)
  rename_i t ht
  refine ⟨t, ht, ?_⟩
  obtain ⟨t0, t1, t2, t3⟩ := closeTop_of_ok hP w1 ht
  obtain ⟨new, n1, n2⟩ := t1.edges
  have q1 : ∀ e ∈ t.pos.edges, e.split = [] := by
    intro e he
    rw [n1] at he
    rcases List.mem_append.1 he with he | he
    · exact p1 e he
    · exact (n2 e he).1
  split at h
  · exact absurd h (by simp)
  dsimp only at h
  split at h
  · exact absurd h (by simp)
  rename_i neg hneg
  split at h
  · exact absurd h (by simp)
  rename_i pos hpos
  cases h
  rw [← t2] at p2 w2 ⊢
  refine ⟨split_seen hP false t.pos t.pos.verts w2 p2 hneg, ?_⟩
  obtain ⟨k1, k2, -, -⟩ := setSplit_all hP false t.pos t.pos.verts t.neg
  have := split_seen hP true _ _ t0 q1 hpos
  rw [k1, k2] at this
  exact this

end QuESo.Plane
