import Verif.Model.MeshUtilities
import Verif.Spec.Surface
import Verif.Proofs.Mesh
import Verif.Proofs.BRepClip
import Mathlib.Tactic.Ring
import Mathlib.Tactic.FieldSimp

/-! # Proofs about mesh refinement -/
namespace QuESo.MeshUtil
open QuESo.Spec QuESo.IO QuESo.BRep
variable {K : Type} [Field K] [LinearOrder K] [IsStrictOrderedRing K]

/-- The mesh is valid and its triangles are `ts`. -/
def Has (m : Mesh K) (ts : List (Tri K)) : Prop := m.check = true ∧ m.visit = some ts

theorem has_addVertex {m : Mesh K} {ts : List (Tri K)} (h : Has m ts) (v : V3 K) : Has (m.addVertex v) ts := by
  obtain ⟨h1, h2⟩ := check_iff.1 h.1
  have hc : (m.addVertex v).check = true := by
    rw [check_iff]
    refine ⟨h1, fun t ht => ?_⟩
    have := h2 t ht
    simp only [Mesh.addVertex, List.length_append, List.length_singleton]
    omega
  refine ⟨hc, ?_⟩
  have hold : ∀ i ∈ List.range m.triangles.length, (m.addVertex v).triangle i = m.triangle i := by
    intro i hi
    have hi : i < m.triangles.length := by simpa using hi
    obtain ⟨g1, g2, g3⟩ := h2 _ (List.getElem_mem hi)
    unfold Mesh.triangle Mesh.corners Mesh.addVertex
    simp only
    rw [List.getElem?_eq_getElem hi]
    simp only
    rw [List.getElem?_append_left g1, List.getElem?_append_left g2, List.getElem?_append_left g3]
  have := h.2
  unfold Mesh.visit at this ⊢
  rw [← this]
  show (List.range m.triangles.length).mapM _ = _
  generalize List.range m.triangles.length = l at hold
  induction l with
  | nil => rfl
  | cons i l ih => rw [List.mapM_cons, List.mapM_cons, hold i (by simp), ih (fun j hj => hold j (by simp [hj]))]

theorem has_addTriangle {m : Mesh K} {ts : List (Tri K)} (h : Has m ts) {t : V3 Nat} {n a b c : V3 K}
    (ha : m.vertices[t.x]? = some a) (hb : m.vertices[t.y]? = some b) (hc : m.vertices[t.z]? = some c) :
    Has (m.addTriangle t n) (ts ++ [⟨a, b, c, n⟩]) := by
  have := visit_extend h.1 [] t n a b c (by simpa using ha) (by simpa using hb) (by simpa using hc)
  rw [List.append_nil] at this
  exact ⟨this.1, this.2 ts h.2⟩

/-- The invariant of a pass: the old vertices are kept, the cache is right. -/
structure PassOK (old : List (V3 K)) (s : Pass K) : Prop where
  pre : old <+: s.mesh.vertices
  cache : ∀ i j id, s.cache.lookup (i, j) = some id → ∃ a b, old[i]? = some a ∧ old[j]? = some b ∧
    s.mesh.vertices[id]? = some (middle a b)

theorem prefix_get {old l : List (V3 K)} (h : old <+: l) {i : Nat} {a : V3 K} (hi : old[i]? = some a) : l[i]? = some a := by
  obtain ⟨r, rfl⟩ := h
  obtain ⟨hl, rfl⟩ := List.getElem?_eq_some_iff.1 hi
  rw [List.getElem?_append_left hl, List.getElem?_eq_getElem hl]

theorem middle_comm (a b : V3 K) : middle a b = middle b a := by unfold middle; rw [add_comm a.x, add_comm a.y, add_comm a.z]

theorem scale_middle (a b : V3 K) : V3.scale (1 / 2) (a + b) = middle a b := by
  show (⟨_, _, _⟩ : V3 K) = ⟨_, _, _⟩
  simp only [V3.add_x, V3.add_y, V3.add_z]
  congr 1 <;> ring

theorem midpointId_spec {old : List (V3 K)} {s : Pass K} (hs : PassOK old s) {ts : List (Tri K)} (hh : Has s.mesh ts) {i j : Nat} {a b : V3 K}
    (hi : old[i]? = some a) (hj : old[j]? = some b) :
    ∃ id s', midpointId old s i j = some (id, s') ∧ PassOK old s' ∧ Has s'.mesh ts ∧ s'.split = s.split ∧
      s.mesh.vertices <+: s'.mesh.vertices ∧ s'.mesh.vertices[id]? = some (middle a b) := by
  obtain ⟨k1, k2, hk, p, q, hp, hq, hm⟩ : ∃ k1 k2, (if j < i then (j, i) else (i, j)) = (k1, k2) ∧ ∃ p q, old[k1]? = some p ∧ old[k2]? = some q ∧
      middle p q = middle a b := by
    by_cases h : j < i
    · exact ⟨j, i, if_pos h, b, a, hj, hi, middle_comm _ _⟩
    · exact ⟨i, j, if_neg h, a, b, hi, hj, rfl⟩
  unfold midpointId
  simp only [hk]
  cases hl : s.cache.lookup (k1, k2) with
  | some id =>
    simp only
    obtain ⟨p', q', h1, h2, h3⟩ := hs.cache _ _ _ hl
    rw [hp] at h1; rw [hq] at h2
    obtain rfl := Option.some.inj h1
    obtain rfl := Option.some.inj h2
    exact ⟨id, s, rfl, hs, hh, rfl, List.prefix_refl _, by rw [h3, hm]⟩
  | none =>
    simp only [hp, hq]
    refine ⟨_, _, rfl, ⟨?_, ?_⟩, has_addVertex hh _, rfl, ⟨_, rfl⟩, ?_⟩
    · exact hs.pre.trans ⟨_, rfl⟩
    · intro i' j' id hid
      rw [List.lookup_cons] at hid
      by_cases he : ((i', j') == (k1, k2)) = true
      · rw [he] at hid
        simp only [Option.some.injEq] at hid
        subst hid
        have := eq_of_beq he
        simp only [Prod.mk.injEq] at this
        obtain ⟨rfl, rfl⟩ := this
        refine ⟨p, q, hp, hq, ?_⟩
        rw [scale_middle]; simp [Mesh.addVertex]
      · have he : ((i', j') == (k1, k2)) = false := by simpa using he
        rw [he] at hid
        obtain ⟨p', q', h1, h2, h3⟩ := hs.cache _ _ _ hid
        refine ⟨p', q', h1, h2, ?_⟩
        exact prefix_get ⟨_, rfl⟩ h3
    · rw [scale_middle, hm]; simp [Mesh.addVertex]

theorem splitTriangle_spec {old : List (V3 K)} {s : Pass K} (hs : PassOK old s) {ts : List (Tri K)} (hh : Has s.mesh ts) {t : V3 Nat} {n a b c : V3 K}
    (ha : old[t.x]? = some a) (hb : old[t.y]? = some b) (hc : old[t.z]? = some c) :
    ∃ s', splitTriangle old t n s = some s' ∧ PassOK old s' ∧ Has s'.mesh (ts ++ quarters ⟨a, b, c, n⟩) ∧ s'.split = true := by
  obtain ⟨e1, s1, h1, o1, v1, -, -, m1⟩ := midpointId_spec hs hh ha hb
  obtain ⟨e2, s2, h2, o2, v2, -, p2, m2⟩ := midpointId_spec o1 v1 hb hc
  obtain ⟨e3, s3, h3, o3, v3, -, p3, m3⟩ := midpointId_spec o2 v2 hc ha
  have m2 := prefix_get p3 m2
  have m1 := prefix_get (p2.trans p3) m1
  have ga := prefix_get o3.pre ha
  have gb := prefix_get o3.pre hb
  have gc := prefix_get o3.pre hc
  unfold splitTriangle
  rw [h1]; simp only
  rw [h2]; simp only
  rw [h3]; simp only
  refine ⟨_, rfl, ⟨o3.pre, o3.cache⟩, ?_, rfl⟩
  have w1 := has_addTriangle (t := ⟨t.x, e1, e3⟩) (n := n) v3 ga m1 m3
  have w2 := has_addTriangle (t := ⟨e1, t.y, e2⟩) (n := n) w1 m1 gb m2
  have w3 := has_addTriangle (t := ⟨e2, t.z, e3⟩) (n := n) w2 m2 gc m3
  have w4 := has_addTriangle (t := ⟨e1, e2, e3⟩) (n := n) w3 m1 m2 m3
  have : ts ++ quarters ⟨a, b, c, n⟩ = ts ++ [⟨a, middle a b, middle c a, n⟩] ++ [⟨middle a b, b, middle b c, n⟩] ++
      [⟨middle b c, c, middle c a, n⟩] ++ [⟨middle a b, middle b c, middle c a, n⟩] := by simp [quarters]
  rw [this]
  exact w4

/-- What one pass does to a triangle. -/
def part (norm : V3 K → K) (thr : K) (t : Tri K) : List (Tri K) := if area norm ⟨t.p1, t.p2, t.p3⟩ > thr then quarters t else [t]

omit [Field K] [LinearOrder K] [IsStrictOrderedRing K] in
theorem triangle_parts {m : Mesh K} {i : Nat} {s : Tri K} (h : m.triangle i = some s) :
    ∃ t, m.triangles[i]? = some t ∧ m.normals[i]? = some s.normal ∧ m.vertices[t.x]? = some s.p1 ∧ m.vertices[t.y]? = some s.p2 ∧
      m.vertices[t.z]? = some s.p3 := by
  unfold Mesh.triangle at h
  cases hc : m.corners i with
  | none => rw [hc] at h; simp at h
  | some c =>
    rw [hc] at h
    cases hn : m.normals[i]? with
    | none => rw [hn] at h; simp at h
    | some n =>
      rw [hn] at h; simp only [Option.some.injEq] at h
      subst h
      unfold Mesh.corners at hc
      cases ht : m.triangles[i]? with
      | none => rw [ht] at hc; simp at hc
      | some t =>
        rw [ht] at hc
        simp only at hc
        split at hc
        · simp only [Option.some.injEq] at hc
          subst hc
          exact ⟨t, rfl, rfl, by assumption, by assumption, by assumption⟩
        · simp at hc

theorem passLoop_spec (norm : V3 K → K) {m : Mesh K} (thr : K) : ∀ (ids : List Nat) (us : List (Tri K)) (s : Pass K) (ts : List (Tri K)),
    ids.mapM m.triangle = some us → PassOK m.vertices s → Has s.mesh ts →
    ∃ s', passLoop norm m thr ids s = some s' ∧ PassOK m.vertices s' ∧ Has s'.mesh (ts ++ us.flatMap (part norm thr)) ∧
      (s.split = true ∨ (∃ t ∈ us, area norm ⟨t.p1, t.p2, t.p3⟩ > thr) → s'.split = true)
  | [], us, s, ts, hu, hs, hh => by
    simp only [List.mapM_nil, Option.pure_def, Option.some.injEq] at hu
    subst hu
    exact ⟨s, rfl, hs, by simpa using hh, by simp⟩
  | i :: rest, us, s, ts, hu, hs, hh => by
    rw [List.mapM_cons] at hu
    simp only [Option.bind_eq_bind] at hu
    obtain ⟨u, hu1, hu⟩ := Option.bind_eq_some_iff.1 hu
    obtain ⟨us', hu2, hu⟩ := Option.bind_eq_some_iff.1 hu
    simp only [Option.pure_def, Option.some.injEq] at hu
    subst hu
    obtain ⟨t, ht, hn, h1, h2, h3⟩ := triangle_parts hu1
    have hc := triangle_corners hu1
    unfold passLoop
    rw [ht, hn, hc]
    simp only
    by_cases ha : area norm ⟨u.p1, u.p2, u.p3⟩ > thr
    · rw [if_pos ha]
      obtain ⟨s1, e1, o1, v1, sp⟩ := splitTriangle_spec (n := u.normal) hs hh h1 h2 h3
      rw [e1]
      simp only
      obtain ⟨s', e', o', v', sp'⟩ := passLoop_spec norm thr rest us' s1 _ hu2 o1 v1
      refine ⟨s', e', o', ?_, fun _ => sp' (Or.inl sp)⟩
      rw [List.append_assoc] at v'
      have : (u :: us').flatMap (part norm thr) = quarters u ++ us'.flatMap (part norm thr) := by
        rw [List.flatMap_cons, part, if_pos ha]
      rw [this]; exact v'
    · rw [if_neg ha]
      have o1 : PassOK m.vertices { s with mesh := s.mesh.addTriangle t u.normal } := ⟨hs.pre, hs.cache⟩
      have v1 := has_addTriangle (t := t) (n := u.normal) hh (prefix_get hs.pre h1) (prefix_get hs.pre h2) (prefix_get hs.pre h3)
      obtain ⟨s', e', o', v', sp'⟩ := passLoop_spec norm thr rest us' _ _ hu2 o1 v1
      refine ⟨s', e', o', ?_, ?_⟩
      · rw [List.append_assoc] at v'
        have : (u :: us').flatMap (part norm thr) = [u] ++ us'.flatMap (part norm thr) := by
          rw [List.flatMap_cons, part, if_neg ha]
        rw [this]; exact v'
      · rintro (h | ⟨x, hx, hx'⟩)
        · exact sp' (Or.inl h)
        · rcases List.mem_cons.1 hx with rfl | hx
          · exact absurd hx' ha
          · exact sp' (Or.inr ⟨x, hx, hx'⟩)

/-! ## The largest area -/

theorem foldl_max {α : Type} (f : α → K) : ∀ (l : List α) (a : K), a ≤ l.foldl (fun a c => max a (f c)) a ∧
    (∀ c ∈ l, f c ≤ l.foldl (fun a c => max a (f c)) a) ∧
    (l.foldl (fun a c => max a (f c)) a = a ∨ ∃ c ∈ l, f c = l.foldl (fun a c => max a (f c)) a)
  | [], a => by simp
  | c :: l, a => by
    obtain ⟨h1, h2, h3⟩ := foldl_max f l (max a (f c))
    simp only [List.foldl_cons]
    refine ⟨le_trans (le_max_left _ _) h1, ?_, ?_⟩
    · intro d hd
      rcases List.mem_cons.1 hd with rfl | hd
      · exact le_trans (le_max_right _ _) h1
      · exact h2 d hd
    · rcases h3 with h3 | ⟨d, hd, h3⟩
      · rcases max_choice a (f c) with h | h
        · left; rw [h3, h]
        · right; exact ⟨c, by simp, by rw [h3, h]⟩
      · right; exact ⟨d, by simp [hd], h3⟩

omit [Field K] [LinearOrder K] [IsStrictOrderedRing K] in
/-- The corners of all triangles. -/
theorem corners_mapM {m : Mesh K} : ∀ {ids : List Nat} {us : List (Tri K)}, ids.mapM m.triangle = some us →
    ids.mapM m.corners = some (us.map fun t => ⟨t.p1, t.p2, t.p3⟩)
  | [], us, h => by
    simp only [List.mapM_nil, Option.pure_def, Option.some.injEq] at h
    subst h; rfl
  | i :: ids, us, hu => by
    rw [List.mapM_cons] at hu
    simp only [Option.bind_eq_bind] at hu
    obtain ⟨u, hu1, hu⟩ := Option.bind_eq_some_iff.1 hu
    obtain ⟨us', hu2, hu⟩ := Option.bind_eq_some_iff.1 hu
    simp only [Option.pure_def, Option.some.injEq] at hu
    subst hu
    rw [List.mapM_cons, triangle_corners hu1, corners_mapM hu2]
    rfl

/-! ## Divided triangles -/

theorem divided_quarters (t : Tri K) : Divided t (quarters t) := by
  have := Divided.split t _ _ _ _ _ _ _ _ rfl (.whole _) (.whole _) (.whole _) (.whole _)
  exact this

theorem divided_part (norm : V3 K → K) (thr : K) (t : Tri K) : Divided t (part norm thr t) := by
  unfold part
  split
  · exact divided_quarters t
  · exact .whole t

omit [LinearOrder K] [IsStrictOrderedRing K] in
theorem forall₂_append_left {α β : Type} {R : α → β → Prop} : ∀ {a b : List α} {l : List β}, List.Forall₂ R (a ++ b) l →
    ∃ l1 l2, l = l1 ++ l2 ∧ List.Forall₂ R a l1 ∧ List.Forall₂ R b l2
  | [], b, l, h => ⟨[], l, rfl, .nil, h⟩
  | x :: a, b, l, h => by
    cases h with
    | cons h1 h2 =>
      obtain ⟨l1, l2, rfl, h3, h4⟩ := forall₂_append_left h2
      exact ⟨_ :: l1, l2, rfl, .cons h1 h3, h4⟩

theorem divided_trans {t : Tri K} {l : List (Tri K)} (h : Divided t l) : ∀ {parts : List (List (Tri K))}, List.Forall₂ Divided l parts →
    Divided t parts.flatten := by
  induction h with
  | whole t =>
    intro parts hp
    cases hp with
    | cons h1 h2 => cases h2; simpa using h1
  | split t q1 q2 q3 q4 a b c d hq _ _ _ _ ia ib ic id =>
    intro parts hp
    obtain ⟨l1, ld, rfl, hp, hd⟩ := forall₂_append_left hp
    obtain ⟨l2, lc, rfl, hp, hc⟩ := forall₂_append_left hp
    obtain ⟨la, lb, rfl, ha, hb⟩ := forall₂_append_left hp
    simp only [List.flatten_append]
    exact .split t q1 q2 q3 q4 _ _ _ _ hq (ia ha) (ib hb) (ic hc) (id hd)

theorem refinement_refl (ts : List (Tri K)) : RefinementOf ts ts := by
  refine ⟨ts.map fun t => [t], ?_, ?_⟩
  · induction ts with
    | nil => exact .nil
    | cons t ts ih => exact .cons (.whole t) ih
  · induction ts with
    | nil => rfl
    | cons t ts ih => simpa using ih

theorem refinement_trans {a b c : List (Tri K)} (h1 : RefinementOf a b) (h2 : RefinementOf b c) : RefinementOf a c := by
  obtain ⟨p, hp, rfl⟩ := h1
  obtain ⟨q, hq, rfl⟩ := h2
  induction hp generalizing q with
  | nil => simp only [List.flatten_nil] at hq; cases hq; exact refinement_refl []
  | cons h1 h2 ih =>
    rw [List.flatten_cons] at hq
    obtain ⟨q1, q2, rfl, g1, g2⟩ := forall₂_append_left hq
    obtain ⟨r, hr, e⟩ := ih q2 g2
    refine ⟨q1.flatten :: r, .cons (divided_trans h1 g1) hr, ?_⟩
    rw [List.flatten_append, List.flatten_cons, e]

theorem refinement_pass (norm : V3 K → K) (thr : K) (ts : List (Tri K)) : RefinementOf ts (ts.flatMap (part norm thr)) := by
  refine ⟨ts.map (part norm thr), ?_, by rw [List.flatMap_def]⟩
  induction ts with
  | nil => exact .nil
  | cons t ts ih => exact .cons (divided_part norm thr t) ih

theorem part_length (norm : V3 K → K) (thr : K) (ts : List (Tri K)) : ts.length ≤ (ts.flatMap (part norm thr)).length := by
  induction ts with
  | nil => simp
  | cons t ts ih =>
    rw [List.flatMap_cons, List.length_append, List.length_cons]
    have : 1 ≤ (part norm thr t).length := by unfold part; split <;> simp [quarters]
    omega

theorem part_length_lt {norm : V3 K → K} {thr : K} : ∀ {ts : List (Tri K)}, (∃ t ∈ ts, area norm ⟨t.p1, t.p2, t.p3⟩ > thr) →
    ts.length + 3 ≤ (ts.flatMap (part norm thr)).length
  | [], h => by simp at h
  | t :: ts, h => by
    rw [List.flatMap_cons, List.length_append, List.length_cons]
    have l1 : 1 ≤ (part norm thr t).length := by unfold part; split <;> simp [quarters]
    have l2 := part_length norm thr ts
    obtain ⟨x, hx, hx'⟩ := h
    rcases List.mem_cons.1 hx with rfl | hx
    · have : (part norm thr x).length = 4 := by unfold part; rw [if_pos hx']; rfl
      omega
    · have := part_length_lt ⟨x, hx, hx'⟩
      omega

/-! ## The loop -/

theorem refineLoop_spec (norm : V3 K → K) {zt : K} (hz : 0 ≤ zt) (n : Nat) : ∀ (fuel : Nat) (m : Mesh K) (ts : List (Tri K)),
    Has m ts → n < m.triangles.length + fuel → 0 < fuel →
    ∃ m' ts', (∀ k, fuel ≤ k → refineLoop norm zt n k m = .ok m') ∧ Has m' ts' ∧ RefinementOf ts ts' ∧ m.vertices <+: m'.vertices ∧
      (n ≤ ts'.length ∨ ∀ t ∈ ts', area norm ⟨t.p1, t.p2, t.p3⟩ ≤ zt) ∧ (n ≤ ts.length → m' = m)
  | fuel, m, ts, hm, hf, hf0 => by
    have hlen : ts.length = m.triangles.length := (visit_spec hm.2).1
    by_cases hn : m.triangles.length < n
    · obtain ⟨fuel, rfl⟩ : ∃ g, fuel = g + 1 := ⟨fuel - 1, by omega⟩
      have hcs := corners_mapM hm.2
      obtain ⟨g1, g2, g3⟩ := foldl_max (area norm) (ts.map fun t => (⟨t.p1, t.p2, t.p3⟩ : V3 (V3 K))) 0
      by_cases ha : maxArea norm (ts.map fun t => ⟨t.p1, t.p2, t.p3⟩) ≤ zt
      · refine ⟨m, ts, ?_, hm, refinement_refl ts, List.prefix_refl _, Or.inr ?_, fun _ => rfl⟩
        · intro k hk
          obtain ⟨k, rfl⟩ : ∃ g, k = g + 1 := ⟨k - 1, by omega⟩
          unfold refineLoop
          rw [if_pos hn, hcs]
          simp only
          rw [if_pos ha]
        · intro t ht
          exact le_trans (g2 _ (List.mem_map.2 ⟨t, ht, rfl⟩)) ha
      · have hpos : 0 < maxArea norm (ts.map fun t => ⟨t.p1, t.p2, t.p3⟩) := lt_of_le_of_lt hz (not_le.1 ha)
        have hex : ∃ t ∈ ts, area norm ⟨t.p1, t.p2, t.p3⟩ > 9 / 10 * maxArea norm (ts.map fun t => ⟨t.p1, t.p2, t.p3⟩) := by
          rcases g3 with g3 | ⟨c, hc, g3⟩
          · exact absurd g3 (ne_of_gt hpos)
          · obtain ⟨t, ht, rfl⟩ := List.mem_map.1 hc
            refine ⟨t, ht, ?_⟩
            rw [g3]
            change 9 / 10 * maxArea norm _ < maxArea norm _
            linarith
        have hstart : PassOK m.vertices (⟨⟨m.vertices, [], []⟩, [], false⟩ : Pass K) :=
          ⟨List.prefix_refl _, by simp⟩
        have hstart2 : Has (⟨m.vertices, [], []⟩ : Mesh K) [] := ⟨by simp [Mesh.check], rfl⟩
        obtain ⟨s', e', o', v', sp⟩ := passLoop_spec norm (9 / 10 * maxArea norm (ts.map fun t => ⟨t.p1, t.p2, t.p3⟩)) _ ts _ [] hm.2 hstart hstart2
        have sp := sp (Or.inr hex)
        rw [List.nil_append] at v'
        have hl' := (visit_spec v'.2).1
        have hgrow := part_length_lt hex
        obtain ⟨m', ts', r1, r2, r3, r4, r5, -⟩ := refineLoop_spec norm hz n fuel s'.mesh _ v' (by omega) (by omega)
        refine ⟨m', ts', ?_, r2, refinement_trans (refinement_pass norm _ ts) r3, o'.pre.trans r4, r5, fun h => absurd h (by omega)⟩
        intro k hk
        obtain ⟨k, rfl⟩ : ∃ g, k = g + 1 := ⟨k - 1, by omega⟩
        unfold refineLoop
        rw [if_pos hn, hcs]
        simp only
        rw [if_neg ha, e']
        simp only [sp, if_true]
        exact r1 k (by omega)
    · refine ⟨m, ts, ?_, hm, refinement_refl ts, List.prefix_refl _, Or.inl (by omega), fun _ => rfl⟩
      intro k hk
      obtain ⟨k, rfl⟩ : ∃ g, k = g + 1 := ⟨k - 1, by omega⟩
      unfold refineLoop
      rw [if_neg hn]

end QuESo.MeshUtil
