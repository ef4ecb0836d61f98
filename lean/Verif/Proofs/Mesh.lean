import Verif.Model.Mesh
import Verif.Proofs.MeshInsert

/-! # Proofs about growing meshes -/
namespace QuESo
open QuESo.IO
variable {K : Type _}

/-- The mesh is extended by vertices, one triangle and its normal. -/
theorem visit_extend {m : Mesh K} (h : m.check = true) (e : List (V3 K)) (t : V3 Nat) (nrm a b c : V3 K)
    (ha : (m.vertices ++ e)[t.x]? = some a) (hb : (m.vertices ++ e)[t.y]? = some b)
    (hc : (m.vertices ++ e)[t.z]? = some c) :
    (⟨m.vertices ++ e, m.triangles ++ [t], m.normals ++ [nrm]⟩ : Mesh K).check = true ∧
    ∀ ts, m.visit = some ts →
      (⟨m.vertices ++ e, m.triangles ++ [t], m.normals ++ [nrm]⟩ : Mesh K).visit = some (ts ++ [⟨a, b, c, nrm⟩]) := by
  obtain ⟨h1, h2⟩ := check_iff.1 h
  have lt_of : ∀ {i : Nat} {v : V3 K}, (m.vertices ++ e)[i]? = some v → i < (m.vertices ++ e).length := by
    intro i v hv
    by_contra hn
    rw [List.getElem?_eq_none (by omega)] at hv
    simp at hv
  refine ⟨?_, ?_⟩
  · rw [check_iff]
    refine ⟨by simp [h1], ?_⟩
    intro t' ht'
    rcases List.mem_append.1 ht' with ht' | ht'
    · have := h2 t' ht'
      simp only [List.length_append]
      omega
    · simp only [List.mem_singleton] at ht'
      subst ht'
      exact ⟨lt_of ha, lt_of hb, lt_of hc⟩
  · intro ts hts
    have hold : ∀ i, i < m.triangles.length →
        (⟨m.vertices ++ e, m.triangles ++ [t], m.normals ++ [nrm]⟩ : Mesh K).triangle i = m.triangle i := by
      intro i hi
      obtain ⟨g1, g2, g3⟩ := h2 _ (List.getElem_mem hi)
      unfold Mesh.triangle Mesh.corners
      simp only
      rw [List.getElem?_append_left hi, List.getElem?_append_left (by omega : i < m.normals.length), List.getElem?_eq_getElem hi]
      simp only
      rw [List.getElem?_append_left g1, List.getElem?_append_left g2, List.getElem?_append_left g3]
    have hnew : (⟨m.vertices ++ e, m.triangles ++ [t], m.normals ++ [nrm]⟩ : Mesh K).triangle m.triangles.length =
        some ⟨a, b, c, nrm⟩ := by
      unfold Mesh.triangle Mesh.corners
      simp only
      rw [List.getElem?_append_right (le_refl _), Nat.sub_self]
      simp only [List.getElem?_cons_zero]
      rw [ha, hb, hc, List.getElem?_append_right (by omega), h1, Nat.sub_self]
      rfl
    unfold Mesh.visit at hts ⊢
    have hmap : ∀ (f g : Nat → Option (Tri K)) (n : Nat), (∀ i, i < n → f i = g i) →
        (List.range n).mapM f = (List.range n).mapM g := by
      intro f g n
      induction n with
      | zero => intro _; rfl
      | succ n ih =>
        intro hfg
        rw [List.range_succ, List.mapM_append, List.mapM_append, ih (fun i hi => hfg i (by omega))]
        simp [hfg n (by omega)]
    simp only [List.length_append, List.length_singleton]
    rw [List.range_succ, List.mapM_append, hmap _ _ _ hold, hts]
    simp [hnew]

end QuESo
