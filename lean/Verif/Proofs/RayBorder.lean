import Verif.Proofs.BRep

namespace QuESo.GQ
open QuESo.AABB QuESo.AABBTree QuESo.Spec QuESo.IO
variable {K : Type} [Field K] [LinearOrder K] [IsStrictOrderedRing K]

theorem edgeHit_hit {zt : K} (hzt : 0 < zt) (r : Ray K) (c : V3 (V3 K)) (hp : NotParallel zt r.direction c)
    (h : EdgeHit zt r.origin r.direction c) :
    ∃ t u v back, r.intersectTri zt c.x c.y c.z = ⟨true, some t, some u, some v, back, false⟩ ∧ zt ≤ t ∧ (u < zt ∨ v < zt ∨ u + v > 1 - zt) := by
  obtain ⟨t, u, v, ⟨hx, hy, hz⟩, h1, h2, h3, h4, h5⟩ := h
  obtain ⟨back, hb⟩ := C29_complete zt hzt r c.x c.y c.z t u v hp (by linarith) (by linarith) (by linarith) (by linarith) hx hy hz
  exact ⟨t, u, v, back, hb, h1, h5⟩

theorem surfaceHit_hit {zt : K} (hzt : 0 < zt) (r : Ray K) (c : V3 (V3 K)) (hp : NotParallel zt r.direction c)
    (h : SurfaceHit zt r.origin r.direction c) :
    ∃ t u v back, r.intersectTri zt c.x c.y c.z = ⟨true, some t, some u, some v, back, false⟩ ∧ t < zt := by
  obtain ⟨t, u, v, ⟨hx, hy, hz⟩, h1, h2, h3, h4, h5⟩ := h
  obtain ⟨back, hb⟩ := C29_complete zt hzt r c.x c.y c.z t u v hp (by linarith) (by linarith) (by linarith) (by linarith) hx hy hz
  exact ⟨t, u, v, back, hb, h2⟩

theorem hit_inTriangle {o d : V3 K} {c : V3 (V3 K)} {t u v : K} (h : PlaneHit o d c t u v) (ht : 0 ≤ t) (hu : 0 ≤ u) (hv : 0 ≤ v) (huv : u + v ≤ 1) :
    ∃ q, OnRay o d q ∧ InBox (triBox c) q := by
  obtain ⟨hx, hy, hz⟩ := h
  refine ⟨⟨o.x + t * d.x, o.y + t * d.y, o.z + t * d.z⟩, ⟨t, ht, rfl, rfl, rfl⟩, inTriangle_triBox ?_⟩
  exact ⟨1 - u - v, u, v, by linarith, by linarith, by linarith, by ring, hx, hy, hz⟩

theorem closedLoop_pass {zt : K} (hzt : 0 < zt) (junk : Nat → V3 K) {m : Mesh K} (r : Ray K) {i : Nat} {c : V3 (V3 K)}
    (hci : m.corners i = some c) (h : Sizable zt c → Clear zt r.origin r.direction c) (rest : List Nat) (n : Nat) :
    ∃ n', closedLoop zt junk m r (i :: rest) n = closedLoop zt junk m r rest n' := by
  rw [closedLoop, cornersAt_ok hci]
  simp only
  by_cases hs : Sizable zt c
  · obtain ⟨hp, hh | hh⟩ := h hs
    · obtain ⟨t, u, v, back, he, g1, g2, g3, g4, -⟩ := clearHit_hit hzt r c hp hh
      rw [(sizable_iff zt c).1 hs, he]
      simp only [Bool.and_self, if_true, Option.getD_some]
      rw [if_neg (by linarith), if_neg (by push Not; refine ⟨?_, ?_, ?_⟩ <;> linarith), if_neg (by simp)]
      exact ⟨_, rfl⟩
    · rw [clearMiss_miss hzt r c hp hh]
      simp only [Bool.and_false, Bool.false_eq_true, if_false]
      exact ⟨_, rfl⟩
  · have ha : areaGt c (100 * zt) = false := by rw [← Bool.not_eq_true, ← sizable_iff]; exact hs
    rw [ha]
    simp only [Bool.false_and, Bool.false_eq_true, if_false]
    exact ⟨_, rfl⟩

theorem closedLoop_edge {zt : K} (hzt : 0 < zt) (junk : Nat → V3 K) {m : Mesh K} (r : Ray K) {i : Nat} {c : V3 (V3 K)}
    (hci : m.corners i = some c) (hs : Sizable zt c) (hp : NotParallel zt r.direction c) (h : EdgeHit zt r.origin r.direction c) (rest : List Nat) (n : Nat) :
    closedLoop zt junk m r (i :: rest) n = .ok (false, false) := by
  obtain ⟨t, u, v, back, he, g1, g2⟩ := edgeHit_hit hzt r c hp h
  rw [closedLoop, cornersAt_ok hci]
  simp only [(sizable_iff zt c).1 hs, he, Bool.and_self, if_true, Option.getD_some, zero_add]
  rw [if_neg (by linarith), if_pos g2]

theorem closedLoop_surface {zt : K} (hzt : 0 < zt) (junk : Nat → V3 K) {m : Mesh K} (r : Ray K) {i : Nat} {c : V3 (V3 K)}
    (hci : m.corners i = some c) (hs : Sizable zt c) (hp : NotParallel zt r.direction c) (h : SurfaceHit zt r.origin r.direction c) (rest : List Nat) (n : Nat) :
    closedLoop zt junk m r (i :: rest) n = .ok (false, true) := by
  obtain ⟨t, u, v, back, he, g1⟩ := surfaceHit_hit hzt r c hp h
  rw [closedLoop, cornersAt_ok hci]
  simp only [(sizable_iff zt c).1 hs, he, Bool.and_self, if_true, Option.getD_some]
  rw [if_pos g1]

/-- If each triangle is passed over or ends the loop with `R`, and one of them ends it, the result is `R`. -/
theorem closedLoop_stop {zt : K} (junk : Nat → V3 K) {m : Mesh K} (hm : m.check = true) (r : Ray K) (R : Bool × Bool) (stop : Nat → Prop)
    (hstep : ∀ i c rest n, m.corners i = some c → (closedLoop zt junk m r (i :: rest) n = .ok R) ∨
      (¬ stop i ∧ ∃ n', closedLoop zt junk m r (i :: rest) n = closedLoop zt junk m r rest n')) : ∀ (ids : List Nat) (n : Nat),
    (∀ i ∈ ids, i < m.triangles.length) → (∃ i ∈ ids, stop i) → closedLoop zt junk m r ids n = .ok R
  | [], _, _, h => by simp at h
  | i :: rest, n, hl, h => by
    obtain ⟨c, hci⟩ := corners_some hm (hl i (by simp))
    rcases hstep i c rest n hci with h1 | ⟨h1, n', h2⟩
    · exact h1
    · rw [h2]
      refine closedLoop_stop junk hm r R stop hstep rest n' (fun j hj => hl j (by simp [hj])) ?_
      obtain ⟨j, hj, hs⟩ := h
      rcases List.mem_cons.1 hj with rfl | hj
      · exact absurd hs h1
      · exact ⟨j, hj, hs⟩

theorem openLoop_pass {zt : K} (hzt : 0 < zt) {m : Mesh K} (r : Ray K) {i : Nat} {c : V3 (V3 K)} (hci : m.corners i = some c)
    (h : Clear zt r.origin r.direction c ∨ ¬ NotParallel zt r.direction c) (rest : List Nat) (t : K) (b : Bool) :
    ∃ t' b', openLoop zt m r (i :: rest) t b = openLoop zt m r rest t' b' := by
  rw [openLoop, cornersAt_ok hci]
  simp only
  rcases h with ⟨hp, hh | hh⟩ | hp
  · obtain ⟨t1, u, v, back, he, g1, g2, g3, g4, -⟩ := clearHit_hit hzt r c hp hh
    rw [he]
    simp only
    rw [if_neg (by linarith), if_neg (by push Not; refine ⟨?_, ?_, ?_⟩ <;> linarith)]
    split <;> exact ⟨_, _, rfl⟩
  · have hr := clearMiss_miss hzt r c hp hh
    split
    · rename_i h1 _ _ _ _; rw [hr] at h1; cases h1
    · exact ⟨_, _, rfl⟩
  · have hq : (r.intersectTri zt c.x c.y c.z).parallel = true := by
      rw [notParallel_iff, Bool.not_eq_false] at hp; exact hp
    split
    · rename_i _ h2 _ _ _; rw [hq] at h2; cases h2
    · exact ⟨_, _, rfl⟩

theorem openLoop_edge {zt : K} (hzt : 0 < zt) {m : Mesh K} (r : Ray K) {i : Nat} {c : V3 (V3 K)}
    (hci : m.corners i = some c) (hp : NotParallel zt r.direction c) (h : EdgeHit zt r.origin r.direction c) (rest : List Nat) (t : K) (b : Bool) :
    openLoop zt m r (i :: rest) t b = .ok (false, false) := by
  obtain ⟨t1, u, v, back, he, g1, g2⟩ := edgeHit_hit hzt r c hp h
  rw [openLoop, cornersAt_ok hci]
  simp only [he, zero_add]
  rw [if_neg (by linarith), if_pos g2]

theorem openLoop_surface {zt : K} (hzt : 0 < zt) {m : Mesh K} (r : Ray K) {i : Nat} {c : V3 (V3 K)}
    (hci : m.corners i = some c) (hp : NotParallel zt r.direction c) (h : SurfaceHit zt r.origin r.direction c) (rest : List Nat) (t : K) (b : Bool) :
    openLoop zt m r (i :: rest) t b = .ok (false, true) := by
  obtain ⟨t1, u, v, back, he, g1⟩ := surfaceHit_hit hzt r c hp h
  rw [openLoop, cornersAt_ok hci]
  simp only [he]
  rw [if_pos g1]

theorem openLoop_stop {zt : K} {m : Mesh K} (hm : m.check = true) (r : Ray K) (R : Bool × Bool) (stop : Nat → Prop)
    (hstep : ∀ i c rest t b, m.corners i = some c → (openLoop zt m r (i :: rest) t b = .ok R) ∨
      (¬ stop i ∧ ∃ t' b', openLoop zt m r (i :: rest) t b = openLoop zt m r rest t' b')) : ∀ (ids : List Nat) (t : K) (b : Bool),
    (∀ i ∈ ids, i < m.triangles.length) → (∃ i ∈ ids, stop i) → openLoop zt m r ids t b = .ok R
  | [], _, _, _, h => by simp at h
  | i :: rest, t, b, hl, h => by
    obtain ⟨c, hci⟩ := corners_some hm (hl i (by simp))
    rcases hstep i c rest t b hci with h1 | ⟨h1, t', b', h2⟩
    · exact h1
    · rw [h2]
      refine openLoop_stop hm r R stop hstep rest t' b' (fun j hj => hl j (by simp [hj])) ?_
      obtain ⟨j, hj, hs⟩ := h
      rcases List.mem_cons.1 hj with rfl | hj
      · exact absurd hs h1
      · exact ⟨j, hj, hs⟩

end QuESo.GQ
