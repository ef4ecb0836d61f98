import Verif.Proofs.ClipBoundary

/-!
# The edges recorded on the faces are edges of the triangles, each of them once per face
-/
namespace QuESo.Clip
open QuESo.Spec QuESo.IO
variable {K : Type} [Field K] [LinearOrder K] [IsStrictOrderedRing K]

/-- The triangles have three different vertices, the recorded edges are edges of their triangles, and none is recorded twice on a face. -/
structure Clean (m : ClippedMesh K) : Prop where
  corners : ∀ t ∈ m.mesh.triangles, t.x ≠ t.y ∧ t.y ≠ t.z ∧ t.z ≠ t.x
  edge : ∀ k, ∀ e ∈ m.edges k, (e.1, e.2.1) ∈ indexEdgesAt m.mesh e.2.2
  nodup : ∀ k, (m.edges k).Nodup

omit [LinearOrder K] [IsStrictOrderedRing K] in
theorem clean_addTri {m m' : ClippedMesh K} (hb : EdgesIn m) (h : Clean m) {a b c n : V3 K} (hm : m'.mesh = (m.addTri a b c n).mesh)
    {es : Nat → List (Nat × Nat × Nat)} (he : ∀ k, m'.edges k = m.edges k ++ es k)
    (hes : ∀ k, es k = [] ∨ ∃ i j, es k = [(i, j, m.mesh.triangles.length)] ∧ (i, j) ∈ [(m.mesh.vertices.length, m.mesh.vertices.length + 1),
      (m.mesh.vertices.length + 1, m.mesh.vertices.length + 2), (m.mesh.vertices.length + 2, m.mesh.vertices.length)]) : EdgesIn m' ∧ Clean m' := by
  rw [addTri_mesh] at hm
  have ht : m'.mesh.triangles = m.mesh.triangles ++ [⟨m.mesh.vertices.length, m.mesh.vertices.length + 1, m.mesh.vertices.length + 2⟩] := by rw [hm]
  refine ⟨?_, ?_, ?_, ?_⟩
  · intro k e hk
    rw [he, List.mem_append] at hk
    rw [ht, List.length_append]
    rcases hk with hk | hk
    · have := hb k e hk; omega
    · rcases hes k with h0 | ⟨i, j, h0, -⟩
      · rw [h0] at hk; simp at hk
      · rw [h0, List.mem_singleton] at hk
        rw [hk]; simp
  · intro t htm
    rw [ht, List.mem_append] at htm
    rcases htm with htm | htm
    · exact h.corners t htm
    · rw [List.mem_singleton] at htm
      subst htm
      refine ⟨?_, ?_, ?_⟩ <;> dsimp only <;> omega
  · intro k e hk
    rw [he, List.mem_append] at hk
    unfold indexEdgesAt
    rcases hk with hk | hk
    · have h1 := h.edge k e hk
      unfold indexEdgesAt at h1
      rw [ht, List.getElem?_append_left (hb k e hk)]
      exact h1
    · rcases hes k with h0 | ⟨i, j, h0, h1⟩
      · rw [h0] at hk; simp at hk
      · rw [h0, List.mem_singleton] at hk
        subst hk
        rw [ht]
        simpa using h1
  · intro k
    rw [he]
    rcases hes k with h0 | ⟨i, j, h0, h1⟩
    · rw [h0, List.append_nil]; exact h.nodup k
    · rw [h0]
      refine List.nodup_append.2 ⟨h.nodup k, by simp, ?_⟩
      intro x hx y hy hxy
      rw [List.mem_singleton] at hy
      subst hxy hy
      have := hb k _ hx
      dsimp only at this
      omega

omit [LinearOrder K] [IsStrictOrderedRing K] in
theorem clean_addFan {m : ClippedMesh K} (hb : EdgesIn m) (h : Clean m) (c n : V3 K) (a b : Vtx K) :
    EdgesIn (addFan c n a b m) ∧ Clean (addFan c n a b m) := by
  obtain ⟨h1, h2⟩ := edgesOfPair_spec a b m.mesh.vertices.length m.mesh.triangles.length (m.addTri a.pt b.pt c n)
  refine clean_addTri (m' := addFan c n a b m) hb h (a := a.pt) (b := b.pt) (c := c) (n := n) h1 h2 ?_
  intro k
  split_ifs
  · exact Or.inr ⟨_, _, rfl, by simp⟩
  · exact Or.inl rfl

omit [LinearOrder K] [IsStrictOrderedRing K] in
theorem clean_fanLoop (c n : V3 K) (first : Vtx K) : ∀ (l : List (Vtx K)) (m : ClippedMesh K), EdgesIn m → Clean m →
    EdgesIn (fanLoop c n first l m) ∧ Clean (fanLoop c n first l m) := by
  intro l
  induction l with
  | nil => intro m hb h; exact ⟨hb, h⟩
  | cons a l ih =>
    intro m hb h
    cases l with
    | nil => exact clean_addFan hb h c n a first
    | cons b l =>
      obtain ⟨h1, h2⟩ := clean_addFan hb h c n a b
      exact ih _ h1 h2

theorem clean_addToMesh {m m' : ClippedMesh K} (hb : EdgesIn m) (h : Clean m) (p : List (Vtx K)) (n : V3 K) (hm' : addToMesh p n m = some m') :
    EdgesIn m' ∧ Clean m' := by
  match p with
  | [] => rw [addToMesh_small [] (by simp)] at hm'; cases hm'; exact ⟨hb, h⟩
  | [a] => rw [addToMesh_small [a] (by simp)] at hm'; cases hm'; exact ⟨hb, h⟩
  | [a, b] => rw [addToMesh_small [a, b] (by simp)] at hm'; cases hm'; exact ⟨hb, h⟩
  | [a, b, c] =>
    obtain ⟨-, hsome⟩ := edgesOfTriangle_spec a b c m.mesh.vertices.length m.mesh.triangles.length (m.addTri a.pt b.pt c.pt n)
    obtain ⟨h1, h2⟩ := hsome m' hm'
    refine clean_addTri hb h h1 h2 ?_
    intro k
    split_ifs
    · exact Or.inr ⟨_, _, rfl, by simp⟩
    · exact Or.inr ⟨_, _, rfl, by simp⟩
    · exact Or.inr ⟨_, _, rfl, by simp⟩
    · exact Or.inl rfl
  | a :: b :: c :: d :: l =>
    have e : m' = fanLoop (centroid (a :: b :: c :: d :: l)) n a (a :: b :: c :: d :: l) m := by
      simp only [addToMesh, Option.some.injEq] at hm'
      exact hm'.symm
    rw [e]
    exact clean_fanLoop _ _ _ _ _ hb h

end QuESo.Clip

namespace QuESo.BRep
open QuESo.Clip QuESo.Spec QuESo.IO QuESo.GQ
variable {K : Type} [Field K] [LinearOrder K] [IsStrictOrderedRing K]

theorem clean_clipLoop {zt : K} {m : Mesh K} (lo up : V3 K) : ∀ (ids : List Nat) (out out' : ClippedMesh K),
    EdgesIn out → Clean out → clipLoop zt m lo up ids out = .ok out' → EdgesIn out' ∧ Clean out' := by
  intro ids
  induction ids with
  | nil => intro out out' hb h hc; simp only [clipLoop] at hc; cases hc; exact ⟨hb, h⟩
  | cons i rest ih =>
    intro out out' hb h hc
    rw [clipLoop] at hc
    split at hc
    · exact absurd hc (by simp)
    split at hc
    · exact absurd hc (by simp)
    · exact ih out out' hb h hc
    · split at hc
      · exact absurd hc (by simp)
      rename_i o1 ho1
      obtain ⟨h1, h2⟩ := clean_addToMesh hb h _ _ ho1
      exact ih o1 out' h1 h2 hc

theorem clean_clip {zt snaptol : K} {g : Query K} {lo up : V3 K} {out : ClippedMesh K} (hc : clipTriangleMesh zt snaptol g lo up = .ok out) :
    EdgesIn out ∧ Clean out := by
  unfold clipTriangleMesh at hc
  split at hc
  · exact absurd hc (by simp)
  split at hc
  · exact absurd hc (by simp)
  rename_i o ho
  have h := clean_clipLoop lo up _ _ _ (by intro k e he; simp [emptyClipped] at he)
    ⟨by intro t ht; simp [emptyClipped, Mesh.empty] at ht, by intro k e he; simp [emptyClipped] at he, by intro k; simp [emptyClipped]⟩ ho
  unfold finish at hc
  split at hc
  · split at hc
    · cases hc; exact h
    · exact absurd hc (by simp)
  · cases hc; exact h

/-- If no edge is recorded on two faces, the recorded edges are those of the six lists. -/
theorem cut_perm {m : ClippedMesh K} (hb : EdgesIn m) (h : Clean m) (hd : ∀ j < 6, ∀ k < 6, j ≠ k → ∀ e ∈ m.edges j, e ∉ m.edges k) :
    (cutEdges m).Perm (((List.range 6).flatMap m.edges).flatMap fun e => endPoints m.mesh (e.1, e.2.1)) := by
  have h1 : cutEdges m = ((List.range m.mesh.triangles.length).flatMap fun i =>
      ((indexEdgesAt m.mesh i).filter fun e => Recorded m i e.1 e.2).map fun e => (e.1, e.2, i)).flatMap fun e => endPoints m.mesh (e.1, e.2.1) := by
    unfold cutEdges
    rw [List.flatMap_assoc]
    refine flatMap_congr' fun i _ => ?_
    rw [List.flatMap_map]
  rw [h1]
  refine List.Perm.flatMap_right _ ?_
  have nidx : ∀ i, (indexEdgesAt m.mesh i).Nodup := by
    intro i
    unfold indexEdgesAt
    split
    · rename_i t ht
      obtain ⟨c1, c2, c3⟩ := h.corners t (List.mem_of_getElem? ht)
      simp only [List.nodup_cons, List.mem_cons, Prod.mk.injEq, List.not_mem_nil, or_false, not_or, not_false_eq_true, List.nodup_nil, and_true]
      refine ⟨⟨fun k => c1 k.1, fun k => c3 k.1.symm⟩, fun k => c2 k.1⟩
    · simp
  refine (List.perm_ext_iff_of_nodup ?_ ?_).2 ?_
  · refine List.nodup_flatMap.2 ⟨fun i _ => ?_, ?_⟩
    · refine List.Nodup.map ?_ ((nidx i).filter _)
      intro a b hab
      simp only [Prod.mk.injEq, and_true] at hab
      exact Prod.ext hab.1 hab.2
    · refine List.Nodup.pairwise_of_forall_ne List.nodup_range fun i _ j _ hij => ?_
      intro x hx hy
      obtain ⟨a, -, ha⟩ := List.mem_map.1 hx
      obtain ⟨b, -, hb⟩ := List.mem_map.1 hy
      rw [← ha] at hb
      simp only [Prod.mk.injEq] at hb
      exact hij hb.2.2.symm
  · refine List.nodup_flatMap.2 ⟨fun k _ => h.nodup k, ?_⟩
    refine List.Nodup.pairwise_of_forall_ne List.nodup_range fun i hi j hj hij => ?_
    intro x hx hy
    exact hd i (List.mem_range.1 hi) j (List.mem_range.1 hj) hij x hx hy
  · rintro ⟨a, b, i⟩
    simp only [List.mem_flatMap, List.mem_range, List.mem_map, List.mem_filter, Prod.mk.injEq, decide_eq_true_eq]
    constructor
    · rintro ⟨i', hi', e, ⟨-, k, hk, hr⟩, rfl, rfl, rfl⟩
      exact ⟨k, hk, hr⟩
    · rintro ⟨k, hk, hr⟩
      exact ⟨i, hb k _ hr, (a, b), ⟨h.edge k _ hr, k, hk, hr⟩, rfl, rfl, rfl⟩

end QuESo.BRep
