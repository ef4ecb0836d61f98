import Verif.Proofs.BoxMesh

/-! # Proofs about removal of triangles and shape of triangles -/
namespace QuESo.MeshUtil
open QuESo.Spec QuESo.IO QuESo.BRep

section remove
variable {K : Type}

theorem visit_of_get {m : Mesh K} {ts : List (Tri K)} (hl : ts.length = m.triangles.length)
    (h : ∀ i, i < m.triangles.length → m.triangle i = ts[i]?) : m.visit = some ts := by
  obtain ⟨us, hu⟩ := mapM_range_exists m.triangle m.triangles.length (fun i hi => by
    rw [h i hi, List.getElem?_eq_getElem (by omega)]; rfl)
  obtain ⟨u1, u2⟩ := mapM_range_some _ _ _ hu
  unfold Mesh.visit
  rw [hu]
  congr 1
  refine List.ext_getElem? fun i => ?_
  by_cases hi : i < m.triangles.length
  · rw [← u2 i hi, h i hi]
  · rw [List.getElem?_eq_none (by omega), List.getElem?_eq_none (by omega)]

/-- Moving the last element to a place. -/
theorem set_last {α : Type} (init : List α) (z : α) (i : Nat) : ((init ++ [z]).set i z).dropLast = init.set i z := by
  rw [List.set_append]
  split
  · rw [List.dropLast_concat]
  · rename_i h
    rw [List.set_eq_of_length_le (l := init) (by omega)]
    by_cases h0 : i - init.length = 0
    · rw [h0]; simp
    · rw [List.set_eq_of_length_le (by simp; omega), List.dropLast_concat]

theorem perm_set {α : Type} (z : α) : ∀ (l : List α) (i : Nat) (h : i < l.length), (l[i] :: l.set i z).Perm (z :: l)
  | [], i, h => by simp at h
  | a :: l, 0, _ => by simpa using List.Perm.swap z a l
  | a :: l, i + 1, h => by
    have := perm_set z l i (by simpa using h)
    simp only [List.getElem_cons_succ, List.set_cons_succ]
    refine (List.Perm.swap _ _ _).trans ((this.cons a).trans (List.Perm.swap _ _ _))

theorem removeTriangle_spec {m : Mesh K} {ts : List (Tri K)} (hm : m.check = true) (hv : m.visit = some ts) {tid : Nat} {t : Tri K} (ht : ts[tid]? = some t) :
    ∃ m' ts', m.removeTriangle tid = some m' ∧ m'.check = true ∧ m'.visit = some ts' ∧ m'.vertices = m.vertices ∧ (t :: ts').Perm ts ∧
      ∀ i, i + 1 < ts.length → i ≠ tid → ts'[i]? = ts[i]? := by
  obtain ⟨hl, hidx⟩ := check_iff.1 hm
  have hlen := (visit_spec hv).1
  have hget := (mapM_range_some _ _ _ hv).2
  obtain ⟨htid, rfl⟩ := List.getElem?_eq_some_iff.1 ht
  have hne : m.triangles ≠ [] := by intro h; rw [h] at hlen; simp at hlen; subst hlen; simp at htid
  have hne' : m.normals ≠ [] := by intro h; rw [h] at hl; exact hne (List.length_eq_zero_iff.1 (by simpa using hl))
  have hnets : ts ≠ [] := by rintro rfl; simp at htid
  obtain ⟨ti, tz, ht'⟩ : ∃ a b, m.triangles = a ++ [b] := ⟨_, _, (List.dropLast_append_getLast hne).symm⟩
  obtain ⟨ni, nz, hn'⟩ : ∃ a b, m.normals = a ++ [b] := ⟨_, _, (List.dropLast_append_getLast hne').symm⟩
  obtain ⟨si, sz, hs'⟩ : ∃ a b, ts = a ++ [b] := ⟨_, _, (List.dropLast_append_getLast hnets).symm⟩
  have l1 : ti.length = ni.length := by rw [ht', hn'] at hl; simpa using hl
  have l2 : si.length = ti.length := by rw [hs', ht'] at hlen; simpa using hlen
  refine ⟨⟨m.vertices, ti.set tid tz, ni.set tid nz⟩, si.set tid sz, ?_, ?_, ?_, rfl, ?_, ?_⟩
  · unfold Mesh.removeTriangle
    rw [ht', hn']
    simp only [List.getLast?_concat, set_last]
    rw [if_pos]
    rw [hs'] at htid
    simp only [List.length_append, List.length_singleton] at htid ⊢
    omega
  · rw [check_iff]
    refine ⟨by simp [l1], fun s hs => ?_⟩
    refine hidx s ?_
    rw [ht']
    rcases List.mem_or_eq_of_mem_set hs with h | h
    · simp [h]
    · simp [h]
  · refine visit_of_get (by simp [l2]) fun i hi => ?_
    simp only [List.length_set] at hi
    have hti : i < m.triangles.length := by rw [ht']; simp; omega
    by_cases he : i = tid
    · have e1 : (ti.set tid tz)[i]? = m.triangles[ti.length]? := by rw [he, List.getElem?_set_self (by omega), ht']; simp
      have e2 : (ni.set tid nz)[i]? = m.normals[ti.length]? := by rw [he, List.getElem?_set_self (by omega), hn', l1]; simp
      have e3 : (si.set tid sz)[i]? = ts[ti.length]? := by rw [he, List.getElem?_set_self (by omega), hs', ← l2]; simp
      have e4 := hget ti.length (by rw [ht']; simp)
      rw [e3, ← e4]
      unfold Mesh.triangle Mesh.corners
      simp only [e1, e2]
    · have e1 : (ti.set tid tz)[i]? = m.triangles[i]? := by
        rw [List.getElem?_set_ne (Ne.symm he), ht', List.getElem?_append_left (by omega)]
      have e2 : (ni.set tid nz)[i]? = m.normals[i]? := by rw [List.getElem?_set_ne (Ne.symm he), hn', List.getElem?_append_left (by omega)]
      have e3 : (si.set tid sz)[i]? = ts[i]? := by rw [List.getElem?_set_ne (Ne.symm he), hs', List.getElem?_append_left (by omega)]
      have e4 := hget i hti
      rw [e3, ← e4]
      unfold Mesh.triangle Mesh.corners
      simp only [e1, e2]
  · by_cases h : tid < si.length
    · have e : ts[tid] = si[tid] := by simp only [hs']; rw [List.getElem_append_left h]
      have := perm_set sz si tid h
      rw [e, hs']
      exact this.trans (List.perm_append_singleton sz si).symm
    · have htid' : tid = si.length := by rw [hs'] at htid; simp at htid; omega
      have e : ts[tid] = sz := by simp only [hs', htid']; rw [List.getElem_append_right (le_refl _)]; simp
      rw [e, List.set_eq_of_length_le (by omega), hs']
      exact (List.perm_append_singleton sz si).symm
  · intro i hi hne
    rw [hs'] at hi ⊢
    simp only [List.length_append, List.length_singleton] at hi
    rw [List.getElem?_set_ne (Ne.symm hne), List.getElem?_append_left (by omega)]

end remove

variable {K : Type} [Field K] [LinearOrder K] [IsStrictOrderedRing K]

/-- The normals are replaced by zero. -/
theorem has_zeroNormals {m : Mesh K} {ts : List (Tri K)} (h : Has m ts) :
    Has ⟨m.vertices, m.triangles, List.replicate m.triangles.length ⟨0, 0, 0⟩⟩ (ts.map fun t => { t with normal := ⟨0, 0, 0⟩ }) := by
  refine ⟨check_iff.2 ⟨by simp, (check_iff.1 h.1).2⟩, visit_of_get (by simp [(visit_spec h.2).1]) fun i hi => ?_⟩
  have hi : i < m.triangles.length := hi
  have hg := corners_get h.2 i hi
  obtain ⟨s, hs⟩ := triangle_some h.1 hi
  have hc := triangle_corners hs
  have hc' : (⟨m.vertices, m.triangles, List.replicate m.triangles.length ⟨0, 0, 0⟩⟩ : Mesh K).corners i = some ⟨s.p1, s.p2, s.p3⟩ := by
    rw [← hc]; rfl
  rw [List.getElem?_map, ← hg, hs]
  unfold Mesh.triangle
  rw [hc']
  simp only [List.getElem?_replicate, if_pos hi, Option.map_some]

/-- The triangle inequality for the edges of a triangle. -/
theorem edge_le {norm : V3 K → K} (hn : IsNorm3 norm) (u v w : V3 K) (h : w.x = -(u.x + v.x) ∧ w.y = -(u.y + v.y) ∧ w.z = -(u.z + v.z)) :
    norm w ≤ norm u + norm v := by
  obtain ⟨u0, u2⟩ := hn u
  obtain ⟨v0, v2⟩ := hn v
  obtain ⟨w0, w2⟩ := hn w
  have cs : u.x * v.x + u.y * v.y + u.z * v.z ≤ norm u * norm v := by
    have : (u.x * v.x + u.y * v.y + u.z * v.z) ^ 2 ≤ (norm u * norm v) ^ 2 := by
      rw [mul_pow, u2, v2]
      nlinarith [sq_nonneg (u.x * v.y - u.y * v.x), sq_nonneg (u.y * v.z - u.z * v.y), sq_nonneg (u.z * v.x - u.x * v.z)]
    exact le_of_abs_le (abs_le_of_sq_le_sq this (mul_nonneg u0 v0))
  have : norm w ^ 2 ≤ (norm u + norm v) ^ 2 := by
    rw [w2, h.1, h.2.1, h.2.2]
    nlinarith
  exact (pow_le_pow_iff_left₀ w0 (add_nonneg u0 v0) (by norm_num)).1 this

/-- Heron's formula. -/
theorem heron {norm : V3 K → K} (hn : IsNorm3 norm) (a b c : V3 K) :
    4 * norm (triangleArea2 a b c) ^ 2 = (norm (b - a) + norm (c - b) + norm (a - c)) * (norm (c - b) + norm (a - c) - norm (b - a)) *
      (norm (b - a) + norm (a - c) - norm (c - b)) * (norm (b - a) + norm (c - b) - norm (a - c)) := by
  have h1 := (hn (b - a)).2
  have h2 := (hn (c - b)).2
  have h3 := (hn (a - c)).2
  have h4 := (hn (triangleArea2 a b c)).2
  simp only [V3.sub_x, V3.sub_y, V3.sub_z] at h1 h2 h3
  generalize norm (b - a) = p at *
  generalize norm (c - b) = q at *
  generalize norm (a - c) = r at *
  have : (p + q + r) * (q + r - p) * (p + r - q) * (p + q - r) = 4 * p ^ 2 * q ^ 2 - (p ^ 2 + q ^ 2 - r ^ 2) ^ 2 := by ring
  rw [this, h4, h1, h2, h3]
  simp only [triangleArea2]
  ring

theorem xyz_le {x y z l : K} (hx : 0 ≤ x) (hy : 0 ≤ y) (hz : 0 ≤ z) (h1 : x + y ≤ 2 * l) (h2 : y + z ≤ 2 * l) (h3 : x + z ≤ 2 * l) :
    3 * (x * y * z) ≤ l ^ 2 * (x + y + z) := by
  have key : ∀ {x y z : K}, 0 ≤ x → 0 ≤ y → 0 ≤ z → x + y ≤ 2 * l → z ≤ x → z ≤ y → 3 * (x * y * z) ≤ l ^ 2 * (x + y + z) := by
    intro x y z hx hy hz h hzx hzy
    have hl : 0 ≤ l := by linarith
    have h4 : x * y ≤ l ^ 2 := by
      have : (x + y) ^ 2 ≤ (2 * l) ^ 2 := pow_le_pow_left₀ (by linarith) h 2
      nlinarith [sq_nonneg (x - y)]
    calc 3 * (x * y * z) = (x * y) * (3 * z) := by ring
      _ ≤ l ^ 2 * (3 * z) := mul_le_mul_of_nonneg_right h4 (by linarith)
      _ ≤ l ^ 2 * (x + y + z) := mul_le_mul_of_nonneg_left (by linarith) (sq_nonneg l)
  rcases le_total x y with hxy | hxy
  · rcases le_total x z with hxz | hxz
    · have := key hy hz hx h2 hxy hxz
      linarith [mul_comm (x * y) z, mul_assoc y z x, show 3 * (y * z * x) = 3 * (x * y * z) by ring, show l ^ 2 * (y + z + x) = l ^ 2 * (x + y + z) by ring]
    · exact key hx hy hz h1 hxz (hxz.trans hxy)
  · rcases le_total y z with hyz | hyz
    · have := key hx hz hy h3 hxy hyz
      linarith [show 3 * (x * z * y) = 3 * (x * y * z) by ring, show l ^ 2 * (x + z + y) = l ^ 2 * (x + y + z) by ring]
    · exact key hx hy hz h1 (hyz.trans hxy) hyz

theorem aspect_ge {norm : V3 K → K} (hn : IsNorm3 norm) {eps root3 : K} (he : 0 ≤ eps) (hr : 0 < root3) (hr2 : root3 ^ 2 ≤ 3) (a b c : V3 K) :
    1 ≤ aspectRatio norm eps root3 ⟨a, b, c⟩ := by
  unfold aspectRatio
  simp only [area_eq]
  split
  · rename_i h
    have hA : 0 < norm (triangleArea2 a b c) := by
      have : (0 : K) < norm (triangleArea2 a b c) / 2 := lt_of_le_of_lt he h
      linarith
    have hh := heron hn a b c
    have p0 := (hn (b - a)).1
    have q0 := (hn (c - b)).1
    have r0 := (hn (a - c)).1
    have t1 := edge_le hn (c - b) (a - c) (b - a) (by simp only [V3.sub_x, V3.sub_y, V3.sub_z]; refine ⟨?_, ?_, ?_⟩ <;> ring)
    have t2 := edge_le hn (b - a) (a - c) (c - b) (by simp only [V3.sub_x, V3.sub_y, V3.sub_z]; refine ⟨?_, ?_, ?_⟩ <;> ring)
    have t3 := edge_le hn (b - a) (c - b) (a - c) (by simp only [V3.sub_x, V3.sub_y, V3.sub_z]; refine ⟨?_, ?_, ?_⟩ <;> ring)
    generalize norm (b - a) = p at *
    generalize norm (c - b) = q at *
    generalize norm (a - c) = r at *
    generalize norm (triangleArea2 a b c) = A at *
    have m1 : p ≤ max (max p q) r := (le_max_left p q).trans (le_max_left _ _)
    have m2 : q ≤ max (max p q) r := (le_max_right p q).trans (le_max_left _ _)
    have m3 : r ≤ max (max p q) r := le_max_right _ _
    generalize max (max p q) r = L at *
    have key := xyz_le (x := q + r - p) (y := p + r - q) (z := p + q - r) (l := L) (by linarith) (by linarith) (by linarith)
      (by linarith) (by linarith) (by linarith)
    rw [le_div_iff₀ (by positivity), one_mul]
    have hsq : (4 * root3 * (A / 2)) ^ 2 ≤ (L * (p + q + r)) ^ 2 := by
      have e1 : (4 * root3 * (A / 2)) ^ 2 = root3 ^ 2 * (4 * A ^ 2) := by ring
      have e2 : q + r - p + (p + r - q) + (p + q - r) = p + q + r := by ring
      rw [e2] at key
      rw [e1]
      have s0 : 0 ≤ p + q + r := by linarith
      calc root3 ^ 2 * (4 * A ^ 2) ≤ 3 * (4 * A ^ 2) := mul_le_mul_of_nonneg_right hr2 (by positivity)
        _ = (p + q + r) * (3 * ((q + r - p) * (p + r - q) * (p + q - r))) := by rw [hh]; ring
        _ ≤ (p + q + r) * (L ^ 2 * (p + q + r)) := mul_le_mul_of_nonneg_left key s0
        _ = (L * (p + q + r)) ^ 2 := by ring
    exact (pow_le_pow_iff_left₀ (by positivity) (mul_nonneg (p0.trans m1) (by linarith)) (by norm_num)).1 hsq
  · norm_num

end QuESo.MeshUtil
