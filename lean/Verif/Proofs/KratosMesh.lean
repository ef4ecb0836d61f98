import Verif.Proofs.Kratos

/-!
# Lemmas about the exchange of meshes and elements with Kratos
-/
namespace QuESo.Kratos
open QuESo.MeshUtil QuESo.TriRule QuESo.BSpline QuESo.Spec QuESo.KratosSpec
variable {K : Type} [Field K] [LinearOrder K]

/-- A node at a position. -/
def nodeAt (id : Nat) (v : V3 K) : Node K := ⟨id, v, ⟨false, false, false⟩, ⟨0, 0, 0⟩⟩

theorem createNodes_eq : ∀ (vs : List (V3 K)) (j : Nat) (mp : ModelPart K), (∀ n ∈ mp.nodes, n.id ≤ j) →
    (vs.zipIdx j).foldlM (fun mp q => createNode (q.2 + 1) q.1 mp) mp =
      some { mp with nodes := mp.nodes ++ (vs.zipIdx j).map fun q => nodeAt (q.2 + 1) q.1 }
  | [], j, mp, _ => by simp
  | v :: vs, j, mp, h => by
    have e : createNode (j + 1) v mp = some { mp with nodes := mp.nodes ++ [nodeAt (j + 1) v] } := by
      unfold createNode
      have hf : mp.nodes.find? (fun n => decide (n.id = j + 1)) = none := by
        rw [List.find?_eq_none]
        intro n hn
        have := h n hn
        simp; omega
      rw [hf]
      dsimp only
      rw [insertById_last]
      · rfl
      · intro b hb
        have := h b hb
        show b.id < j + 1
        omega
    rw [List.zipIdx_cons, List.foldlM_cons]
    simp only [e]
    change List.foldlM _ _ _ = _
    rw [createNodes_eq vs (j + 1) { mp with nodes := mp.nodes ++ [nodeAt (j + 1) v] } (by
      intro n hn
      rcases List.mem_append.1 hn with hn | hn
      · have := h n hn; omega
      · rw [List.mem_singleton.1 hn]; exact le_refl _)]
    simp

/-- Creation of an element with the largest id. -/
theorem createElement_next {mp : ModelPart K} {e : Element K} (h : ∀ f ∈ mp.elements, f.id < e.id) (hk : Known mp e.geom) :
    createElement e mp = some { mp with elements := mp.elements ++ [e] } := by
  have hany : mp.elements.any (fun f => decide (f.id = e.id)) = false := by
    rw [List.any_eq_false]
    intro b hb
    have := h b hb
    simp; omega
  have he : some { mp with elements := insertById Element.id e mp.elements } = some { mp with elements := mp.elements ++ [e] } := by
    rw [insertById_last _ _ _ h]
  unfold createElement
  rw [hany]
  simp only [Bool.false_eq_true, if_false]
  rcases hg : e.geom with ids | ps | t
  · rw [hg] at hk
    dsimp only
    rw [if_pos]
    · exact he
    · rw [List.all_eq_true]
      intro i hi
      obtain ⟨n, hn, e⟩ := hk i hi
      rw [List.any_eq_true]
      exact ⟨n, hn, by simpa using e⟩
  · exact he
  · exact he

/-! ## Dictionaries -/

/-- The value of a dictionary that is filled from an enumerated list. -/
def dict {α β : Type _} [DecidableEq β] (key : α → β) (l : List α) (b : β) (j : Nat) (r : Option Nat) : Option Nat :=
  (l.zipIdx j).foldl (fun r q => if key q.1 = b then some q.2 else r) r

theorem dict_spec {α β : Type _} [DecidableEq β] (key : α → β) (b : β) : ∀ (l : List α) (j : Nat) (r : Option Nat),
    (b ∉ l.map key ∧ dict key l b j r = r) ∨ ∃ i, dict key l b j r = some (j + i) ∧ (l.map key)[i]? = some b
  | [], _, _ => .inl ⟨by simp, rfl⟩
  | a :: l, j, r => by
    have e : dict key (a :: l) b j r = dict key l b (j + 1) (if key a = b then some j else r) := by
      unfold dict
      rw [List.zipIdx_cons, List.foldl_cons]
    rw [e]
    rcases dict_spec key b l (j + 1) (if key a = b then some j else r) with ⟨h1, h2⟩ | ⟨i, h1, h2⟩
    · by_cases h : key a = b
      · refine .inr ⟨0, ?_, by simp [h]⟩
        rw [h2, if_pos h]
        rfl
      · refine .inl ⟨by simp only [List.map_cons, List.mem_cons, not_or]; exact ⟨fun hh => h hh.symm, h1⟩, ?_⟩
        rw [h2, if_neg h]
    · refine .inr ⟨i + 1, ?_, by simpa using h2⟩
      rw [h1]
      congr 1
      omega

theorem idOfVertex_spec {vs : List (V3 K)} {v : V3 K} (h : v ∈ vs) : ∃ i, idOfVertex vs v = some i ∧ vs[i]? = some v := by
  have e : idOfVertex vs v = dict id vs v 0 none := rfl
  rw [e]
  rcases dict_spec id v vs 0 none with ⟨h1, -⟩ | ⟨i, h1, h2⟩
  · simp at h1; exact absurd h h1
  · exact ⟨i, by rw [h1, Nat.zero_add], by simpa using h2⟩

theorem idOfNode_spec {ns : List (Node K)} {n : Nat} (h : n ∈ ns.map Node.id) : ∃ i, idOfNode ns n = some i ∧ (ns.map Node.id)[i]? = some n := by
  have e : idOfNode ns n = dict Node.id ns n 0 none := rfl
  rw [e]
  rcases dict_spec Node.id n ns 0 none with ⟨h1, -⟩ | ⟨i, h1, h2⟩
  · exact absurd h h1
  · exact ⟨i, by rw [h1, Nat.zero_add], h2⟩

/-! ## Meshes -/

theorem visit_mem {m : Mesh K} {ts : List (Tri K)} (h : m.visit = some ts) {t : Tri K} (ht : t ∈ ts) :
    t.p1 ∈ m.vertices ∧ t.p2 ∈ m.vertices ∧ t.p3 ∈ m.vertices := by
  obtain ⟨i, hi, rfl⟩ := List.getElem_of_mem ht
  have hc := (IO.visit_spec h).2 i
  rw [List.getElem?_eq_getElem hi] at hc
  unfold Mesh.corners at hc
  cases htri : m.triangles[i]? with
  | none => rw [htri] at hc; cases hc
  | some u =>
    rw [htri] at hc
    dsimp only at hc
    cases h1 : m.vertices[u.x]? with
    | none => rw [h1] at hc; cases hc
    | some a =>
      cases h2 : m.vertices[u.y]? with
      | none => rw [h1, h2] at hc; cases hc
      | some b =>
        cases h3 : m.vertices[u.z]? with
        | none => rw [h1, h2, h3] at hc; cases hc
        | some c =>
          rw [h1, h2, h3] at hc
          simp only [Option.map_some, Option.some.injEq, V3.mk.injEq] at hc
          obtain ⟨e1, e2, e3⟩ := hc
          rw [← e1, ← e2, ← e3]
          exact ⟨List.mem_of_getElem? h1, List.mem_of_getElem? h2, List.mem_of_getElem? h3⟩

theorem createTriangles_spec {vs : List (V3 K)} (ns : List (Node K)) (hns : ns = vs.zipIdx.map fun q => nodeAt (q.2 + 1) q.1) :
    ∀ (ts : List (Tri K)) (j : Nat) (mp : ModelPart K), mp.nodes = ns → (∀ e ∈ mp.elements, e.id ≤ j) →
    (∀ t ∈ ts, t.p1 ∈ vs ∧ t.p2 ∈ vs ∧ t.p3 ∈ vs) →
    ∃ new, (ts.zipIdx j).foldlM (fun mp q =>
        (idOfVertex vs q.1.p1).bind fun a =>
          (idOfVertex vs q.1.p2).bind fun b =>
            (idOfVertex vs q.1.p3).bind fun c =>
              createElement ⟨"ShellThinElement3D3N", q.2 + 1, .nodes [a + 1, b + 1, c + 1]⟩ mp) mp =
        some { mp with elements := mp.elements ++ new } ∧ new.map Element.id = List.range' (j + 1) ts.length ∧
      List.Forall₂ (fun (e : Element K) t => e.kind = "ShellThinElement3D3N" ∧ TriangleOn mp e.geom ⟨t.p1, t.p2, t.p3⟩) new ts
  | [], j, mp, _, _, _ => ⟨[], by simp, rfl, .nil⟩
  | t :: ts, j, mp, hn, he, hv => by
    obtain ⟨v1, v2, v3⟩ := hv t (by simp)
    obtain ⟨a, a1, a2⟩ := idOfVertex_spec v1
    obtain ⟨b, b1, b2⟩ := idOfVertex_spec v2
    obtain ⟨c, c1, c2⟩ := idOfVertex_spec v3
    have key : ∀ {i : Nat} {p : V3 K}, vs[i]? = some p → NodeAt mp (i + 1) p := by
      intro i p hp
      refine ⟨nodeAt (i + 1) p, ?_, rfl, rfl⟩
      rw [hn, hns]
      exact List.mem_map.2 ⟨(p, i), List.mem_zipIdx_iff_getElem?.2 hp, rfl⟩
    have hc : createElement ⟨"ShellThinElement3D3N", j + 1, .nodes [a + 1, b + 1, c + 1]⟩ mp =
        some { mp with elements := mp.elements ++ [⟨"ShellThinElement3D3N", j + 1, .nodes [a + 1, b + 1, c + 1]⟩] } := by
      refine createElement_next (fun f hf => ?_) ?_
      · have := he f hf
        show f.id < j + 1
        omega
      · intro i hi
        have : ∃ p, NodeAt mp i p := by
          simp only [List.mem_cons, List.not_mem_nil, or_false] at hi
          rcases hi with rfl | rfl | rfl
          · exact ⟨_, key a2⟩
          · exact ⟨_, key b2⟩
          · exact ⟨_, key c2⟩
        obtain ⟨p, n, h1, h2, -⟩ := this
        exact ⟨n, h1, h2⟩
    obtain ⟨new, n1, n2, n3⟩ := createTriangles_spec ns hns ts (j + 1)
      { mp with elements := mp.elements ++ [⟨"ShellThinElement3D3N", j + 1, .nodes [a + 1, b + 1, c + 1]⟩] } hn (by
        intro e hm
        rcases List.mem_append.1 hm with hm | hm
        · have := he e hm; omega
        · rw [List.mem_singleton.1 hm]) (fun u hu => hv u (by simp [hu]))
    refine ⟨⟨"ShellThinElement3D3N", j + 1, .nodes [a + 1, b + 1, c + 1]⟩ :: new, ?_, ?_, ?_⟩
    · rw [List.zipIdx_cons, List.foldlM_cons]
      simp only [a1, b1, c1, Option.bind_some, hc]
      change List.foldlM _ _ _ = _
      rw [n1]
      simp
    · rw [List.map_cons, n2, List.length_cons, List.range'_succ]
    · exact .cons ⟨rfl, a + 1, b + 1, c + 1, rfl, key a2, key b2, key c2⟩ n3

theorem foldl_nodes : ∀ (ns : List (Node K)) (m : Mesh K), ns.foldl (fun m n => m.addVertex n.pos) m =
    ⟨m.vertices ++ ns.map Node.pos, m.triangles, m.normals⟩
  | [], m => by simp
  | n :: ns, m => by
    rw [List.foldl_cons, foldl_nodes ns]
    simp [Mesh.addVertex]

theorem addTriangles_spec (norm : V3 K → K) (zt : K) {mp : ModelPart K} (ho : OrderedNodes mp) :
    ∀ (gs : List (Geom K)) (cs : List (V3 (V3 K))), List.Forall₂ (TriangleOn mp) gs cs → ∀ (m : Mesh K) (ts : List (Tri K)),
      m.vertices = mp.nodes.map Node.pos → m.check = true → m.visit = some ts →
      ∃ m', gs.foldlM (fun m g =>
        g.nodeIds.bind fun ids =>
          (idOfNode mp.nodes ids.x).bind fun a =>
            (idOfNode mp.nodes ids.y).bind fun b =>
              (idOfNode mp.nodes ids.z).bind fun c => pyAddTriangle norm zt ⟨a, b, c⟩ m) m = some m' ∧
        m'.vertices = mp.nodes.map Node.pos ∧ m'.check = true ∧
        m'.visit = some (ts ++ cs.map fun c => ⟨c.x, c.y, c.z, normal norm zt c⟩)
  | _, _, .nil, m, ts, hm, hc, hv => ⟨m, rfl, hm, hc, by simpa using hv⟩
  | g :: gs, c :: cs, .cons hg hr, m, ts, hm, hc, hv => by
    obtain ⟨i, j, k, rfl, hi, hj, hk⟩ := hg
    have key : ∀ {i : Nat} {p : V3 K}, NodeAt mp i p → ∃ a, idOfNode mp.nodes i = some a ∧ m.vertices[a]? = some p := by
      rintro i p ⟨n, hn, rfl, rfl⟩
      obtain ⟨a, a1, a2⟩ := idOfNode_spec (List.mem_map.2 ⟨n, hn, rfl⟩)
      refine ⟨a, a1, ?_⟩
      rw [hm, List.getElem?_map]
      rw [List.getElem?_map] at a2
      obtain ⟨n', hn', e⟩ := Option.map_eq_some_iff.1 a2
      have : n' = n := List.inj_on_of_nodup_map (ho.imp fun h => ne_of_lt h) (List.mem_of_getElem? hn') hn e
      rw [hn', this]
      rfl
    obtain ⟨a, a1, a2⟩ := key hi
    obtain ⟨b, b1, b2⟩ := key hj
    obtain ⟨d, d1, d2⟩ := key hk
    have ext := visit_extend hc [] ⟨a, b, d⟩ (normal norm zt c) c.x c.y c.z (by simpa using a2) (by simpa using b2) (by simpa using d2)
    rw [List.append_nil] at ext
    have e : pyAddTriangle norm zt ⟨a, b, d⟩ m = some ⟨m.vertices, m.triangles ++ [⟨a, b, d⟩], m.normals ++ [normal norm zt c]⟩ := by
      unfold pyAddTriangle
      simp only [a2, b2, d2]
      rfl
    obtain ⟨m', n1, n2, n3, n4⟩ := addTriangles_spec norm zt ho gs cs hr ⟨m.vertices, m.triangles ++ [⟨a, b, d⟩], m.normals ++ [normal norm zt c]⟩ _ hm ext.1
      (ext.2 ts hv)
    refine ⟨m', ?_, n2, n3, ?_⟩
    · rw [List.foldlM_cons]
      simp only [Geom.nodeIds, Option.bind_some, a1, b1, d1, e]
      exact n1
    · rw [n4]
      simp

end QuESo.Kratos
