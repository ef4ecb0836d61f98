import Verif.Model.Clipper
import Verif.Spec.Clip
import Verif.Proofs.Mesh
import Verif.Proofs.Octree
import Mathlib.Tactic.LinearCombination

/-! # Proofs about adding a polygon to a mesh -/
namespace QuESo.Clip
open QuESo.IO QuESo.Spec
variable {K : Type _} [Field K] [LinearOrder K]

omit [LinearOrder K] in
theorem addTri_mesh (m : ClippedMesh K) (a b c n : V3 K) :
    (m.addTri a b c n).mesh = ⟨m.mesh.vertices ++ [a, b, c],
      m.mesh.triangles ++ [⟨m.mesh.vertices.length, m.mesh.vertices.length + 1, m.mesh.vertices.length + 2⟩],
      m.mesh.normals ++ [n]⟩ := by
  simp [ClippedMesh.addTri, Mesh.addVertex, Mesh.addTriangle]

omit [LinearOrder K] in
theorem addTri_spec {m : ClippedMesh K} (h : m.mesh.check = true) (a b c n : V3 K) :
    (m.addTri a b c n).mesh.check = true ∧
    ∀ ts, m.mesh.visit = some ts → (m.addTri a b c n).mesh.visit = some (ts ++ [⟨a, b, c, n⟩]) := by
  rw [addTri_mesh]
  refine visit_extend h _ _ _ _ _ _ ?_ ?_ ?_
  · simp
  · simp
  · simp

omit [LinearOrder K] in
theorem edgesOfPair_spec (a b : Vtx K) (nv nt : Nat) (m : ClippedMesh K) :
    (edgesOfPair a b nv nt m).mesh = m.mesh ∧
    ∀ k, (edgesOfPair a b nv nt m).edges k = m.edges k ++ (if k < 6 ∧ a.on k = true ∧ b.on k = true then [(nv, nv + 1, nt)] else []) := by
  have aux : ∀ n, ((List.range n).foldl (fun m k => if a.on k ∧ b.on k then m.addEdge k nv (nv + 1) nt else m) m).mesh = m.mesh ∧
      ∀ k, ((List.range n).foldl (fun m k => if a.on k ∧ b.on k then m.addEdge k nv (nv + 1) nt else m) m).edges k =
        m.edges k ++ (if k < n ∧ a.on k = true ∧ b.on k = true then [(nv, nv + 1, nt)] else []) := by
    intro n
    induction n with
    | zero => simp
    | succ n ih =>
      rw [List.range_succ, List.foldl_append]
      simp only [List.foldl_cons, List.foldl_nil]
      generalize (List.range n).foldl (fun m k => if a.on k ∧ b.on k then m.addEdge k nv (nv + 1) nt else m) m = m' at *
      obtain ⟨h1, h2⟩ := ih
      split
      · rename_i hc
        refine ⟨h1, fun k => ?_⟩
        simp only [ClippedMesh.addEdge]
        by_cases hk : k = n
        · subst hk
          simp [h2, hc.1, hc.2]
        · simp only [hk, if_false, h2]
          have : k < n + 1 ↔ k < n := by omega
          simp [this]
      · rename_i hc
        refine ⟨h1, fun k => ?_⟩
        rw [h2]
        by_cases hk : k = n
        · subst hk
          simp [hc]
        · have : k < n + 1 ↔ k < n := by omega
          simp [this]
  exact aux 6

/-- One edge recorded on a plane is an edge of the polygon whose ends are flagged, and an edge of the triangle. -/
def GoodEdge (mesh : Mesh K) (k : Nat) (a b : Vtx K) (e : Nat × Nat × Nat) : Prop :=
  a.on k = true ∧ b.on k = true ∧ mesh.vertices[e.1]? = some a.pt ∧ mesh.vertices[e.2.1]? = some b.pt ∧
    ∃ t, mesh.triangles[e.2.2]? = some t ∧
      ((e.1 = t.x ∧ e.2.1 = t.y) ∨ (e.1 = t.y ∧ e.2.1 = t.z) ∨ (e.1 = t.z ∧ e.2.1 = t.x))

/-- The mesh grew: indices of the old mesh keep their meaning. -/
def Grown (m m' : Mesh K) : Prop := (∃ e, m'.vertices = m.vertices ++ e) ∧ (∃ e, m'.triangles = m.triangles ++ e)

omit [Field K] [LinearOrder K] in
theorem getElem?_grow {α : Type _} {l e : List α} {i : Nat} {a : α} (h : l[i]? = some a) : (l ++ e)[i]? = some a := by
  have hi : i < l.length := by
    by_contra hn
    rw [List.getElem?_eq_none (by omega)] at h
    simp at h
  rw [List.getElem?_append_left hi, h]

omit [Field K] [LinearOrder K] in
theorem GoodEdge.grow {m m' : Mesh K} (hg : Grown m m') {k : Nat} {a b : Vtx K} {e : Nat × Nat × Nat}
    (h : GoodEdge m k a b e) : GoodEdge m' k a b e := by
  obtain ⟨⟨e1, h1⟩, e2, h2⟩ := hg
  obtain ⟨g1, g2, g3, g4, t, g5, g6⟩ := h
  refine ⟨g1, g2, ?_, ?_, t, ?_, g6⟩
  · rw [h1]; exact getElem?_grow g3
  · rw [h1]; exact getElem?_grow g4
  · rw [h2]; exact getElem?_grow g5

/-- What adding triangles for the edges `ps` of a polygon with the common apex `c` does. -/
structure Added (m m' : ClippedMesh K) (ps : List (Vtx K × Vtx K)) (new : List (Tri K)) : Prop where
  check : m'.mesh.check = true
  visit : ∀ ts, m.mesh.visit = some ts → m'.mesh.visit = some (ts ++ new)
  grown : Grown m.mesh m'.mesh
  old : ∀ k, ∃ es, m'.edges k = m.edges k ++ es ∧ (∀ e ∈ es, k < 6 ∧ ∃ p ∈ ps, GoodEdge m'.mesh k p.1 p.2 e) ∧
    (∀ p ∈ ps, k < 6 → p.1.on k = true → p.2.on k = true → ∃ e ∈ es, GoodEdge m'.mesh k p.1 p.2 e)

omit [Field K] [LinearOrder K] in
theorem Grown.trans {a b c : Mesh K} (h1 : Grown a b) (h2 : Grown b c) : Grown a c := by
  obtain ⟨⟨e1, h1⟩, e2, h2'⟩ := h1
  obtain ⟨⟨f1, g1⟩, f2, g2⟩ := h2
  exact ⟨⟨e1 ++ f1, by rw [g1, h1, List.append_assoc]⟩, ⟨e2 ++ f2, by rw [g2, h2', List.append_assoc]⟩⟩

omit [LinearOrder K] in
theorem addFan_added {m : ClippedMesh K} (h : m.mesh.check = true) (c n : V3 K) (a b : Vtx K) :
    Added m (addFan c n a b m) [(a, b)] [⟨a.pt, b.pt, c, n⟩] := by
  obtain ⟨h1, h2⟩ := edgesOfPair_spec a b m.mesh.vertices.length m.mesh.triangles.length (m.addTri a.pt b.pt c n)
  have hs := addTri_spec h a.pt b.pt c n
  have hm := addTri_mesh m a.pt b.pt c n
  refine ⟨?_, ?_, ?_, ?_⟩
  · unfold addFan; rw [h1]; exact hs.1
  · intro ts hts; unfold addFan; rw [h1]; exact hs.2 ts hts
  · unfold addFan; rw [h1, hm]; exact ⟨⟨_, rfl⟩, ⟨_, rfl⟩⟩
  · intro k
    refine ⟨_, h2 k, ?_, ?_⟩
    · intro e he
      split at he
      · rename_i hc
        simp only [List.mem_singleton] at he
        subst he
        refine ⟨hc.1, (a, b), by simp, hc.2.1, hc.2.2, ?_, ?_, ⟨m.mesh.vertices.length, m.mesh.vertices.length + 1, m.mesh.vertices.length + 2⟩, ?_, Or.inl ⟨rfl, rfl⟩⟩
        · unfold addFan; rw [h1, hm]; simp
        · unfold addFan; rw [h1, hm]; simp
        · unfold addFan; rw [h1, hm]; simp
      · simp at he
    · intro p hp hk ha hb
      simp only [List.mem_singleton] at hp
      subst hp
      rw [if_pos ⟨hk, ha, hb⟩]
      refine ⟨_, List.mem_singleton.2 rfl, ha, hb, ?_, ?_, ⟨m.mesh.vertices.length, m.mesh.vertices.length + 1, m.mesh.vertices.length + 2⟩, ?_, Or.inl ⟨rfl, rfl⟩⟩
      · unfold addFan; rw [h1, hm]; simp
      · unfold addFan; rw [h1, hm]; simp
      · unfold addFan; rw [h1, hm]; simp

omit [Field K] [LinearOrder K] in
theorem Added.trans {m1 m2 m3 : ClippedMesh K} {ps qs : List (Vtx K × Vtx K)} {n1 n2 : List (Tri K)}
    (h1 : Added m1 m2 ps n1) (h2 : Added m2 m3 qs n2) : Added m1 m3 (ps ++ qs) (n1 ++ n2) where
  check := h2.check
  visit := fun ts hts => by rw [h2.visit _ (h1.visit _ hts), List.append_assoc]
  grown := h1.grown.trans h2.grown
  old := by
    intro k
    obtain ⟨e1, a1, b1, c1⟩ := h1.old k
    obtain ⟨e2, a2, b2, c2⟩ := h2.old k
    refine ⟨e1 ++ e2, by rw [a2, a1, List.append_assoc], ?_, ?_⟩
    · intro e he
      rcases List.mem_append.1 he with he | he
      · obtain ⟨hk, p, hp, hg⟩ := b1 e he
        exact ⟨hk, p, List.mem_append_left _ hp, hg.grow h2.grown⟩
      · obtain ⟨hk, p, hp, hg⟩ := b2 e he
        exact ⟨hk, p, List.mem_append_right _ hp, hg⟩
    · intro p hp hk ha hb
      rcases List.mem_append.1 hp with hp | hp
      · obtain ⟨e, he, hg⟩ := c1 p hp hk ha hb
        exact ⟨e, List.mem_append_left _ he, hg.grow h2.grown⟩
      · obtain ⟨e, he, hg⟩ := c2 p hp hk ha hb
        exact ⟨e, List.mem_append_right _ he, hg⟩

omit [Field K] [LinearOrder K] in
theorem zip_next {α : Type _} (first a b : α) (l : List α) :
    (a :: b :: l).zip ((b :: l) ++ [first]) = (a, b) :: (b :: l).zip (l ++ [first]) := rfl

omit [LinearOrder K] in
theorem fanLoop_added {m : ClippedMesh K} (h : m.mesh.check = true) (c n : V3 K) (first : Vtx K) (a : Vtx K) (l : List (Vtx K)) :
    Added m (fanLoop c n first (a :: l) m) ((a :: l).zip (l ++ [first]))
      (((a :: l).zip (l ++ [first])).map fun p => ⟨p.1.pt, p.2.pt, c, n⟩) := by
  induction l generalizing m a with
  | nil => exact addFan_added h c n a first
  | cons b l ih =>
    have h1 := addFan_added h c n a b
    have h2 := ih h1.check b
    rw [zip_next]
    exact h1.trans h2

theorem cyclicPairs_cons {α : Type _} (a : α) (l : List α) : cyclicPairs (a :: l) = (a :: l).zip (l ++ [a]) := by
  unfold cyclicPairs
  rw [List.rotate_cons_succ, List.rotate_zero]

/-- The triangles of a polygon with three corners, or with more corners around the mean. -/
def fan (p : List (Vtx K)) (n : V3 K) : List (Tri K) :=
  match p with
  | [] => []
  | [_] => []
  | [_, _] => []
  | [a, b, c] => [⟨a.pt, b.pt, c.pt, n⟩]
  | p => (cyclicPairs p).map fun e => ⟨e.1.pt, e.2.pt, mean (p.map Vtx.pt), n⟩

omit [LinearOrder K] in
theorem edgesOfTriangle_spec (v1 v2 v3 : Vtx K) (nv nt : Nat) (m : ClippedMesh K) :
    (edgesOfTriangle v1 v2 v3 nv nt m = none ↔ ∃ k, k < 6 ∧ v1.on k = true ∧ v2.on k = true ∧ v3.on k = true) ∧
    ∀ m', edgesOfTriangle v1 v2 v3 nv nt m = some m' → m'.mesh = m.mesh ∧ ∀ k, m'.edges k = m.edges k ++
      (if k < 6 ∧ v1.on k = true ∧ v2.on k = true then [(nv, nv + 1, nt)]
       else if k < 6 ∧ v2.on k = true ∧ v3.on k = true then [(nv + 1, nv + 2, nt)]
       else if k < 6 ∧ v3.on k = true ∧ v1.on k = true then [(nv + 2, nv, nt)] else []) := by
  unfold edgesOfTriangle
  set F : ClippedMesh K → Nat → Option (ClippedMesh K) := fun m k =>
    if v1.on k ∧ v2.on k ∧ v3.on k then none
    else if v1.on k ∧ v2.on k then some (m.addEdge k nv (nv + 1) nt)
    else if v2.on k ∧ v3.on k then some (m.addEdge k (nv + 1) (nv + 2) nt)
    else if v3.on k ∧ v1.on k then some (m.addEdge k (nv + 2) nv nt)
    else some m with hF
  have aux : ∀ n, ((List.range n).foldlM F m = none ↔ ∃ k, k < n ∧ v1.on k = true ∧ v2.on k = true ∧ v3.on k = true) ∧
      ∀ m', (List.range n).foldlM F m = some m' → m'.mesh = m.mesh ∧ ∀ k, m'.edges k = m.edges k ++
      (if k < n ∧ v1.on k = true ∧ v2.on k = true then [(nv, nv + 1, nt)]
       else if k < n ∧ v2.on k = true ∧ v3.on k = true then [(nv + 1, nv + 2, nt)]
       else if k < n ∧ v3.on k = true ∧ v1.on k = true then [(nv + 2, nv, nt)] else []) := by
    intro n
    induction n with
    | zero => simp
    | succ n ih =>
      rw [List.range_succ, List.foldlM_append]
      simp only [List.foldlM_cons, List.foldlM_nil, Option.bind_eq_bind, Option.pure_def, Option.bind_some]
      cases hr : (List.range n).foldlM F m with
      | none =>
        rw [hr] at ih
        obtain ⟨k, hk, h⟩ := ih.1.1 rfl
        simp only [Option.bind_none, true_iff]
        exact ⟨⟨k, by omega, h⟩, by simp⟩
      | some m1 =>
        rw [hr] at ih
        obtain ⟨i1, i2⟩ := ih
        have i1' : ¬ ∃ k, k < n ∧ v1.on k = true ∧ v2.on k = true ∧ v3.on k = true := fun h => by simpa using i1.2 h
        obtain ⟨j1, j2⟩ := i2 m1 rfl
        simp only [Option.bind_some]
        have hlt : ∀ k, k ≠ n → (k < n + 1 ↔ k < n) := fun k hk => by omega
        constructor
        · constructor
          · intro h
            simp only [hF, Option.bind_fun_some] at h
            split_ifs at h with c1
            exact ⟨n, by omega, c1⟩
          · rintro ⟨k, hk, h⟩
            by_cases hkn : k = n
            · subst hkn
              simp [hF, h]
            · exact absurd ⟨k, by omega, h⟩ i1'
        · intro m' hm'
          simp only [hF, Option.bind_fun_some] at hm'
          split_ifs at hm' with c1 c2 c3 c4
          · simp only [Option.some.injEq] at hm'
            subst hm'
            refine ⟨j1, fun k => ?_⟩
            simp only [ClippedMesh.addEdge, j2]
            by_cases hkn : k = n
            · subst hkn; revert c1 c2; cases v1.on k <;> cases v2.on k <;> cases v3.on k <;> simp
            · simp only [hkn, if_false, hlt k hkn]
          · simp only [Option.some.injEq] at hm'
            subst hm'
            refine ⟨j1, fun k => ?_⟩
            simp only [ClippedMesh.addEdge, j2]
            by_cases hkn : k = n
            · subst hkn; revert c1 c2 c3; cases v1.on k <;> cases v2.on k <;> cases v3.on k <;> simp
            · simp only [hkn, if_false, hlt k hkn]
          · simp only [Option.some.injEq] at hm'
            subst hm'
            refine ⟨j1, fun k => ?_⟩
            simp only [ClippedMesh.addEdge, j2]
            by_cases hkn : k = n
            · subst hkn; revert c1 c2 c3 c4; cases v1.on k <;> cases v2.on k <;> cases v3.on k <;> simp
            · simp only [hkn, if_false, hlt k hkn]
          · simp only [Option.some.injEq] at hm'
            subst hm'
            refine ⟨j1, fun k => ?_⟩
            simp only [j2]
            by_cases hkn : k = n
            · subst hkn; revert c1 c2 c3 c4; cases v1.on k <;> cases v2.on k <;> cases v3.on k <;> simp
            · simp only [hlt k hkn]
  exact aux 6

omit [LinearOrder K] in
theorem triangle_added {m m' : ClippedMesh K} (h : m.mesh.check = true) (n : V3 K) (a b c : Vtx K)
    (hm' : edgesOfTriangle a b c m.mesh.vertices.length m.mesh.triangles.length (m.addTri a.pt b.pt c.pt n) = some m') :
    Added m m' (cyclicPairs [a, b, c]) [⟨a.pt, b.pt, c.pt, n⟩] := by
  obtain ⟨hnone, hsome⟩ := edgesOfTriangle_spec a b c m.mesh.vertices.length m.mesh.triangles.length (m.addTri a.pt b.pt c.pt n)
  obtain ⟨h1, h2⟩ := hsome m' hm'
  have hs := addTri_spec h a.pt b.pt c.pt n
  have hm := addTri_mesh m a.pt b.pt c.pt n
  have hnot : ∀ k, k < 6 → ¬ (a.on k = true ∧ b.on k = true ∧ c.on k = true) := by
    intro k hk hc
    have := hnone.2 ⟨k, hk, hc⟩
    rw [hm'] at this
    simp at this
  have v0 : m'.mesh.vertices[m.mesh.vertices.length]? = some a.pt := by rw [h1, hm]; simp
  have v1 : m'.mesh.vertices[m.mesh.vertices.length + 1]? = some b.pt := by rw [h1, hm]; simp
  have v2 : m'.mesh.vertices[m.mesh.vertices.length + 2]? = some c.pt := by rw [h1, hm]; simp
  have t0 : m'.mesh.triangles[m.mesh.triangles.length]? =
      some ⟨m.mesh.vertices.length, m.mesh.vertices.length + 1, m.mesh.vertices.length + 2⟩ := by rw [h1, hm]; simp
  have hp : cyclicPairs [a, b, c] = [(a, b), (b, c), (c, a)] := rfl
  refine ⟨?_, ?_, ?_, ?_⟩
  · rw [h1]; exact hs.1
  · intro ts hts; rw [h1]; exact hs.2 ts hts
  · rw [h1, hm]; exact ⟨⟨_, rfl⟩, ⟨_, rfl⟩⟩
  · intro k
    refine ⟨_, h2 k, ?_, ?_⟩
    · intro e he
      rw [hp]
      split_ifs at he with c1 c2 c3
      · simp only [List.mem_singleton] at he
        subst he
        exact ⟨c1.1, (a, b), by simp, c1.2.1, c1.2.2, v0, v1, _, t0, Or.inl ⟨rfl, rfl⟩⟩
      · simp only [List.mem_singleton] at he
        subst he
        exact ⟨c2.1, (b, c), by simp, c2.2.1, c2.2.2, v1, v2, _, t0, Or.inr (Or.inl ⟨rfl, rfl⟩)⟩
      · simp only [List.mem_singleton] at he
        subst he
        exact ⟨c3.1, (c, a), by simp, c3.2.1, c3.2.2, v2, v0, _, t0, Or.inr (Or.inr ⟨rfl, rfl⟩)⟩
      · simp at he
    · intro p hpm hk ha hb
      have hn := hnot k hk
      rw [hp] at hpm
      simp only [List.mem_cons, List.not_mem_nil, or_false] at hpm
      rcases hpm with rfl | rfl | rfl
      · refine ⟨(m.mesh.vertices.length, m.mesh.vertices.length + 1, m.mesh.triangles.length), ?_, ha, hb, v0, v1, _, t0, Or.inl ⟨rfl, rfl⟩⟩
        rw [if_pos ⟨hk, ha, hb⟩]; simp
      · refine ⟨(m.mesh.vertices.length + 1, m.mesh.vertices.length + 2, m.mesh.triangles.length), ?_, ha, hb, v1, v2, _, t0, Or.inr (Or.inl ⟨rfl, rfl⟩)⟩
        rw [if_neg (fun h => hn ⟨h.2.1, ha, hb⟩), if_pos ⟨hk, ha, hb⟩]; simp
      · refine ⟨(m.mesh.vertices.length + 2, m.mesh.vertices.length, m.mesh.triangles.length), ?_, ha, hb, v2, v0, _, t0, Or.inr (Or.inr ⟨rfl, rfl⟩)⟩
        rw [if_neg (fun h => hn ⟨h.2.1, h.2.2, ha⟩), if_neg (fun h => hn ⟨hb, h.2.1, h.2.2⟩), if_pos ⟨hk, ha, hb⟩]; simp

omit [LinearOrder K] in
theorem centroid_eq (p : List (Vtx K)) : centroid p = mean (p.map Vtx.pt) := by
  have aux : ∀ (p : List (Vtx K)) (s : V3 K), p.foldl (fun s v => s + v.pt) s = s + sumV (p.map Vtx.pt) := by
    intro p
    induction p with
    | nil => intro s; apply V3.ext <;> simp [sumV]
    | cons v p ih =>
      intro s
      rw [List.foldl_cons, ih]
      apply V3.ext <;> simp [sumV, add_assoc]
  unfold centroid mean
  simp only [aux, List.length_map]
  simp

omit [LinearOrder K] in
/-- What adding a polygon to a mesh does. -/
theorem addToMesh_added {m m' : ClippedMesh K} (h : m.mesh.check = true) (p : List (Vtx K)) (hp : 3 ≤ p.length) (n : V3 K)
    (hm' : addToMesh p n m = some m') : Added m m' (cyclicPairs p) (fan p n) := by
  match p, hp with
  | [a, b, c], _ => exact triangle_added h n a b c hm'
  | a :: b :: c :: d :: l, _ =>
    have e : m' = fanLoop (centroid (a :: b :: c :: d :: l)) n a (a :: b :: c :: d :: l) m := by
      simp only [addToMesh, Option.some.injEq] at hm'
      exact hm'.symm
    rw [e, cyclicPairs_cons, centroid_eq]
    have := fanLoop_added h (mean ((a :: b :: c :: d :: l).map Vtx.pt)) n a a (b :: c :: d :: l)
    have ef : fan (a :: b :: c :: d :: l) n = (cyclicPairs (a :: b :: c :: d :: l)).map
        fun e => ⟨e.1.pt, e.2.pt, mean ((a :: b :: c :: d :: l).map Vtx.pt), n⟩ := rfl
    rw [ef, cyclicPairs_cons]
    exact this

omit [LinearOrder K] in
theorem addToMesh_small (p : List (Vtx K)) (hp : p.length < 3) (n : V3 K) (m : ClippedMesh K) : addToMesh p n m = some m := by
  match p, hp with
  | [], _ => rfl
  | [_], _ => rfl
  | [_, _], _ => rfl

omit [LinearOrder K] in
theorem addToMesh_none (p : List (Vtx K)) (n : V3 K) (m : ClippedMesh K) :
    addToMesh p n m = none ↔ p.length = 3 ∧ ∃ k, k < 6 ∧ ∀ v ∈ p, v.on k = true := by
  match p with
  | [] => simp [addToMesh]
  | [_] => simp [addToMesh]
  | [_, _] => simp [addToMesh]
  | [a, b, c] =>
    simp only [addToMesh]
    rw [(edgesOfTriangle_spec _ _ _ _ _ _).1]
    simp
  | a :: b :: c :: d :: l => simp [addToMesh]

/-! ## Area -/

omit [LinearOrder K] in
theorem pairs_sum (f : V3 K → K) (l : List (V3 K)) :
    ((cyclicPairs l).map fun e => f e.1).sum = ((cyclicPairs l).map fun e => f e.2).sum := by
  have h1 : (cyclicPairs l).map Prod.fst = l := List.map_fst_zip (by simp)
  have h2 : (cyclicPairs l).map Prod.snd = l.rotate 1 := List.map_snd_zip (by simp)
  have e1 : ((cyclicPairs l).map fun e => f e.1) = l.map f := by
    rw [← h1, List.map_map, h1]; rfl
  have e2 : ((cyclicPairs l).map fun e => f e.2) = (l.rotate 1).map f := by
    rw [← h2, List.map_map]; rfl
  rw [e1, e2]
  exact ((List.rotate_perm l 1).map f).sum_eq.symm

omit [LinearOrder K] in
theorem area_fan (l : List (V3 K)) (c : V3 K) :
    sumV ((cyclicPairs l).map fun e => triangleArea2 e.1 e.2 c) = polygonArea2 l := by
  have hx := pairs_sum V3.x l
  have hy := pairs_sum V3.y l
  have hz := pairs_sum V3.z l
  have sub : ∀ (f g h : V3 K × V3 K → K), (∀ e, f e = g e + h e) →
      ((cyclicPairs l).map f).sum = ((cyclicPairs l).map g).sum + ((cyclicPairs l).map h).sum := by
    intro f g h hfg
    rw [← List.sum_map_add]
    congr 1
    exact List.map_congr_left (fun e _ => hfg e)
  have lin : ∀ (u v : K) (f g : V3 K → K), ((cyclicPairs l).map fun e => f e.1).sum = ((cyclicPairs l).map fun e => f e.2).sum →
      ((cyclicPairs l).map fun e => g e.1).sum = ((cyclicPairs l).map fun e => g e.2).sum →
      ((cyclicPairs l).map fun e => u * (f e.2 - f e.1) + v * (g e.2 - g e.1)).sum = 0 := by
    intro u v f g hf hg
    rw [List.sum_map_add, List.sum_map_mul_left, List.sum_map_mul_left]
    have e1 : ((cyclicPairs l).map fun e => f e.2 - f e.1).sum = 0 := by
      have := sub (fun e => f e.2) (fun e => f e.2 - f e.1) (fun e => f e.1) (fun e => by ring)
      rw [← hf] at this
      linear_combination -this
    have e2 : ((cyclicPairs l).map fun e => g e.2 - g e.1).sum = 0 := by
      have := sub (fun e => g e.2) (fun e => g e.2 - g e.1) (fun e => g e.1) (fun e => by ring)
      rw [← hg] at this
      linear_combination -this
    rw [e1, e2]; ring
  unfold polygonArea2 sumV
  apply V3.ext
  · simp only [List.map_map, Function.comp_def, triangleArea2]
    rw [sub _ (fun e => e.1.y * e.2.z - e.1.z * e.2.y) (fun e => c.z * (e.2.y - e.1.y) + (-c.y) * (e.2.z - e.1.z)) (fun e => by ring),
      lin c.z (-c.y) V3.y V3.z hy hz, add_zero]
  · simp only [List.map_map, Function.comp_def, triangleArea2]
    rw [sub _ (fun e => e.1.z * e.2.x - e.1.x * e.2.z) (fun e => c.x * (e.2.z - e.1.z) + (-c.z) * (e.2.x - e.1.x)) (fun e => by ring),
      lin c.x (-c.z) V3.z V3.x hz hx, add_zero]
  · simp only [List.map_map, Function.comp_def, triangleArea2]
    rw [sub _ (fun e => e.1.x * e.2.y - e.1.y * e.2.x) (fun e => c.y * (e.2.x - e.1.x) + (-c.x) * (e.2.y - e.1.y)) (fun e => by ring),
      lin c.y (-c.x) V3.x V3.y hx hy, add_zero]

omit [LinearOrder K] in
theorem fan_area (p : List (Vtx K)) (hp : 3 ≤ p.length) (n : V3 K) :
    sumV ((fan p n).map fun t => triangleArea2 t.p1 t.p2 t.p3) = polygonArea2 (p.map Vtx.pt) := by
  match p, hp with
  | [a, b, c], _ =>
    apply V3.ext <;> simp [fan, polygonArea2, cyclicPairs, sumV, triangleArea2] <;> ring
  | a :: b :: c :: d :: l, _ =>
    rw [← area_fan _ (mean ((a :: b :: c :: d :: l).map Vtx.pt))]
    have ef : fan (a :: b :: c :: d :: l) n = (cyclicPairs (a :: b :: c :: d :: l)).map
        fun e => ⟨e.1.pt, e.2.pt, mean ((a :: b :: c :: d :: l).map Vtx.pt), n⟩ := rfl
    rw [ef]
    have : cyclicPairs ((a :: b :: c :: d :: l).map Vtx.pt) = (cyclicPairs (a :: b :: c :: d :: l)).map (Prod.map Vtx.pt Vtx.pt) := by
      unfold cyclicPairs
      rw [← List.map_rotate, List.zip_map]
    rw [this, List.map_map, List.map_map]
    rfl

omit [LinearOrder K] in
theorem fan_eq (p : List (Vtx K)) (n : V3 K) : fan p n = triangulation (p.map Vtx.pt) n := by
  match p with
  | [] => rfl
  | [_] => rfl
  | [_, _] => rfl
  | [a, b, c] => rfl
  | a :: b :: c :: d :: l =>
    have ef : fan (a :: b :: c :: d :: l) n = (cyclicPairs (a :: b :: c :: d :: l)).map
        fun e => ⟨e.1.pt, e.2.pt, mean ((a :: b :: c :: d :: l).map Vtx.pt), n⟩ := rfl
    have eg : triangulation ((a :: b :: c :: d :: l).map Vtx.pt) n = (cyclicPairs ((a :: b :: c :: d :: l).map Vtx.pt)).map
        fun e => ⟨e.1, e.2, mean ((a :: b :: c :: d :: l).map Vtx.pt), n⟩ := rfl
    have : cyclicPairs ((a :: b :: c :: d :: l).map Vtx.pt) = (cyclicPairs (a :: b :: c :: d :: l)).map (Prod.map Vtx.pt Vtx.pt) := by
      unfold cyclicPairs
      rw [← List.map_rotate, List.zip_map]
    rw [ef, eg, this, List.map_map]
    rfl

end QuESo.Clip
