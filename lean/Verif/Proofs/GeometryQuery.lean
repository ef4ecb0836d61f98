import Verif.Model.GeometryQuery
import Verif.Spec.Ray
import Verif.Props.AABBTree
import Verif.Proofs.MeshInsert
import Mathlib.Data.Set.Card
import Mathlib.Algebra.Ring.Parity

namespace QuESo.GQ
open QuESo.AABB QuESo.AABBTree QuESo.Spec QuESo.IO
variable {K : Type} [Field K] [LinearOrder K] [IsStrictOrderedRing K]

omit [Field K] [LinearOrder K] [IsStrictOrderedRing K] in
theorem corners_lt {m : Mesh K} {i : Nat} {c : V3 (V3 K)} (h : m.corners i = some c) : i < m.triangles.length := by
  unfold Mesh.corners at h
  by_contra hn
  rw [List.getElem?_eq_none (by omega)] at h
  cases h

omit [Field K] [LinearOrder K] [IsStrictOrderedRing K] in
theorem cornersAt_ok {m : Mesh K} {i : Nat} {c : V3 (V3 K)} (h : m.corners i = some c) : cornersAt m i = .ok c := by
  rw [cornersAt, h]

omit [Field K] [LinearOrder K] [IsStrictOrderedRing K] in
theorem allCorners_spec {m : Mesh K} (hm : m.check = true) : ∀ ids : List Nat, (∀ i ∈ ids, i < m.triangles.length) →
    ∃ cs, allCorners m ids = .ok cs ∧ ids.map m.corners = cs.map some
  | [], _ => ⟨[], rfl, rfl⟩
  | i :: rest, h => by
    obtain ⟨c, hc⟩ := corners_some hm (h i (by simp))
    obtain ⟨cs, h1, h2⟩ := allCorners_spec hm rest (fun j hj => h j (by simp [hj]))
    refine ⟨c :: cs, ?_, by simp [hc, h2]⟩
    rw [allCorners, cornersAt_ok hc, h1]

omit [Field K] [LinearOrder K] [IsStrictOrderedRing K] in
theorem allCorners_range {m : Mesh K} (hm : m.check = true) : ∃ cs, allCorners m (List.range m.triangles.length) = .ok cs ∧
    cs.length = m.triangles.length ∧ ∀ i, m.corners i = cs[i]? := by
  obtain ⟨cs, h1, h2⟩ := allCorners_spec hm (List.range m.triangles.length) (fun i hi => List.mem_range.1 hi)
  have hl : cs.length = m.triangles.length := by simpa using (congrArg List.length h2).symm
  refine ⟨cs, h1, hl, fun i => ?_⟩
  by_cases hi : i < m.triangles.length
  · have := congrArg (·[i]?) h2
    simp only [List.getElem?_map, List.getElem?_range hi, Option.map_some] at this
    rw [List.getElem?_eq_getElem (hl ▸ hi)] at this ⊢
    simpa using this
  · rw [List.getElem?_eq_none (by omega)]
    cases h : m.corners i with
    | none => rfl
    | some c => exact absurd (corners_lt h) hi

theorem triBox_ordered (c : V3 (V3 K)) : Ordered (triBox c) := by
  refine ⟨?_, ?_, ?_⟩ <;>
  · simp only [triBox, Clip.triMin, Clip.triMax]
    exact (min_le_left _ _).trans ((min_le_left _ _).trans ((le_max_left _ _).trans (le_max_left _ _)))

theorem comb_mem {u v w a b c l : K} (hu : 0 ≤ u) (hv : 0 ≤ v) (hw : 0 ≤ w) (h1 : u + v + w = 1) :
    (l ≤ a → l ≤ b → l ≤ c → l ≤ u * a + v * b + w * c) ∧ (a ≤ l → b ≤ l → c ≤ l → u * a + v * b + w * c ≤ l) := by
  have hl : l = u * l + v * l + w * l := by rw [← add_mul, ← add_mul, h1, one_mul]
  refine ⟨fun ha hb hc => ?_, fun ha hb hc => ?_⟩
  · have h2 := mul_le_mul_of_nonneg_left ha hu
    have h3 := mul_le_mul_of_nonneg_left hb hv
    have h4 := mul_le_mul_of_nonneg_left hc hw
    linarith
  · have h2 := mul_le_mul_of_nonneg_left ha hu
    have h3 := mul_le_mul_of_nonneg_left hb hv
    have h4 := mul_le_mul_of_nonneg_left hc hw
    linarith

theorem inTriangle_triBox {c : V3 (V3 K)} {q : V3 K} (h : InTriangle c.x c.y c.z q) : InBox (triBox c) q := by
  obtain ⟨u, v, w, hu, hv, hw, h1, hx, hy, hz⟩ := h
  refine ⟨⟨?_, ?_⟩, ⟨?_, ?_⟩, ⟨?_, ?_⟩⟩ <;> simp only [triBox, Clip.triMin, Clip.triMax, hx, hy, hz]
  · exact (comb_mem hu hv hw h1).1 (by simp) (by simp) (by simp)
  · exact (comb_mem hu hv hw h1).2 (by simp) (by simp) (by simp)
  · exact (comb_mem hu hv hw h1).1 (by simp) (by simp) (by simp)
  · exact (comb_mem hu hv hw h1).2 (by simp) (by simp) (by simp)
  · exact (comb_mem hu hv hw h1).1 (by simp) (by simp) (by simp)
  · exact (comb_mem hu hv hw h1).2 (by simp) (by simp) (by simp)

/-- The query object is built; its tree is that of the boxes of the triangles. -/
theorem new_spec (junk : Node K) (maxd : K) {m : Mesh K} (hm : m.check = true) (hn : m.triangles.length ≤ 2 ^ 30) (closed : Bool) :
    ∃ (cs : List (V3 (V3 K))) (t : AABBTree.Tree K), Query.new junk maxd m closed = .ok ⟨m, t, (cs.map triBox).foldl lowerStep ⟨maxd, maxd, maxd⟩,
        (cs.map triBox).foldl upperStep ⟨-maxd, -maxd, -maxd⟩, closed⟩ ∧ Tree.build junk (cs.map triBox) = .ok t ∧
      cs.length = m.triangles.length ∧ ∀ i, m.corners i = cs[i]? := by
  obtain ⟨cs, h1, h2, h3⟩ := allCorners_range hm
  obtain ⟨t, h4, -⟩ := build_spec junk (cs.map triBox) (by simp only [List.mem_map]; rintro _ ⟨c, -, rfl⟩; exact triBox_ordered c)
    (by norm_num at hn; simpa [h2] using hn)
  refine ⟨cs, t, ?_, h4, h2, h3⟩
  rw [Query.new, h1]
  simp only
  rw [h4]

/-- A query with any test that accepts every ordered box with `P`, where `P` is inherited by larger boxes. -/
theorem tree_query (junk : Node K) {m : Mesh K} (hne : m.triangles ≠ []) (hn : m.triangles.length ≤ 2 ^ 30)
    {cs : List (V3 (V3 K))} {t : AABBTree.Tree K} (hb : Tree.build junk (cs.map triBox) = .ok t)
    (hl : cs.length = m.triangles.length) (hc : ∀ i, m.corners i = cs[i]?) (test : Box K → Bool) (P : Box K → Prop)
    (hup : ∀ a b, Ordered a → Ordered b → BoxLe a b → P a → P b) (himp : ∀ b, Ordered b → P b → test b = true) :
    ∃ ids, t.query test = .ok ids ∧ ids.Nodup ∧ (∀ i ∈ ids, i < m.triangles.length) ∧
      ∀ i c, m.corners i = some c → P (triBox c) → i ∈ ids := by
  have hne' : cs.map triBox ≠ [] := by
    intro h
    rw [List.map_eq_nil_iff] at h
    rw [h] at hl
    exact hne (List.length_eq_zero_iff.1 hl.symm)
  obtain ⟨t', ids, h1, h2, h3, h4, h5⟩ := query_spec junk (cs.map triBox) hne'
    (by simp only [List.mem_map]; rintro _ ⟨c, -, rfl⟩; exact triBox_ordered c) (by norm_num at hn; simpa [hl] using hn) test
  rw [hb] at h1
  cases h1
  refine ⟨ids, h2, h3, fun i hi => ?_, fun i c hi hP => ?_⟩
  · obtain ⟨h, -⟩ := h4 i hi
    simpa [hl] using h
  · rw [hc i] at hi
    obtain ⟨hlt, rfl⟩ := List.getElem?_eq_some_iff.1 hi
    refine h5 P hup himp i (by simpa using hlt) ?_
    simpa using hP

theorem intersectedLoop_spec {m : Mesh K} (hm : m.check = true) (b : Box K) (tol : K) : ∀ ids : List Nat,
    (∀ i ∈ ids, i < m.triangles.length) → ids.Nodup → ∃ out, intersectedLoop m b tol ids = .ok out ∧ out.Sublist ids ∧
      ∀ i, i ∈ out ↔ i ∈ ids ∧ ∃ c, m.corners i = some c ∧ intersectTri b c.x c.y c.z tol = true
  | [], _, _ => ⟨[], rfl, List.Sublist.refl _, by simp⟩
  | i :: rest, h, hd => by
    obtain ⟨c, hc⟩ := corners_some hm (h i (by simp))
    rw [List.nodup_cons] at hd
    obtain ⟨out, h1, h2, h3⟩ := intersectedLoop_spec hm b tol rest (fun j hj => h j (by simp [hj])) hd.2
    refine ⟨_, by rw [intersectedLoop, cornersAt_ok hc, h1], ?_, fun j => ?_⟩
    · split
      · exact List.Sublist.cons₂ _ h2
      · exact List.Sublist.cons _ h2
    · rw [List.mem_cons]
      have hci : j = i → ((∃ c, m.corners j = some c ∧ intersectTri b c.x c.y c.z tol = true) ↔ intersectTri b c.x c.y c.z tol = true) := by
        rintro rfl; simp [hc]
      split
      · rename_i ht
        rw [List.mem_cons, h3]
        constructor
        · rintro (rfl | ⟨h4, h5⟩)
          · exact ⟨Or.inl rfl, (hci rfl).2 ht⟩
          · exact ⟨Or.inr h4, h5⟩
        · rintro ⟨rfl | h4, h5⟩
          · exact Or.inl rfl
          · exact Or.inr ⟨h4, h5⟩
      · rename_i ht
        rw [h3]
        constructor
        · rintro ⟨h4, h5⟩
          exact ⟨Or.inr h4, h5⟩
        · rintro ⟨rfl | h4, h5⟩
          · exact absurd ((hci rfl).1 h5) ht
          · exact ⟨h4, h5⟩

theorem doIntersectLoop_spec {m : Mesh K} (hm : m.check = true) (b : Box K) (tol : K) : ∀ ids : List Nat,
    (∀ i ∈ ids, i < m.triangles.length) → ∃ r, doIntersectLoop m b tol ids = .ok r ∧
      (r = true ↔ ∃ i ∈ ids, ∃ c, m.corners i = some c ∧ intersectTri b c.x c.y c.z tol = true)
  | [], _ => ⟨false, rfl, by simp⟩
  | i :: rest, h => by
    obtain ⟨c, hc⟩ := corners_some hm (h i (by simp))
    obtain ⟨r, h1, h2⟩ := doIntersectLoop_spec hm b tol rest (fun j hj => h j (by simp [hj]))
    rw [doIntersectLoop, cornersAt_ok hc]
    simp only
    split
    · rename_i ht
      exact ⟨true, rfl, by simp only [true_iff]; exact ⟨i, by simp, c, hc, ht⟩⟩
    · rename_i ht
      refine ⟨r, h1, h2.trans ⟨fun ⟨j, hj, g⟩ => ⟨j, by simp [hj], g⟩, ?_⟩⟩
      rintro ⟨j, hj, c', hc', g⟩
      rcases List.mem_cons.1 hj with rfl | hj
      · rw [hc] at hc'; cases hc'; exact absurd g ht
      · exact ⟨j, hj, c', hc', g⟩

omit [IsStrictOrderedRing K] in
theorem inBoxTol_inBox [IsStrictOrderedRing K] {lo up q : V3 K} {tol : K} (ht : 0 ≤ tol) (h : InBoxTol lo up (-tol) q) : InBox ⟨lo, up⟩ q := by
  obtain ⟨⟨x1, x2⟩, ⟨y1, y2⟩, z1, z2⟩ := h
  exact ⟨⟨by simp only; linarith, by simp only; linarith⟩, ⟨by simp only; linarith, by simp only; linarith⟩,
    by simp only; linarith, by simp only; linarith⟩


/-! ## Rays -/

theorem triHit_shape (zt : K) (r : Ray K) (a b c : V3 K) (h : (r.intersectTri zt a b c).ret = true)
    (hp : (r.intersectTri zt a b c).parallel = false) :
    ∃ t u v back, r.intersectTri zt a b c = ⟨true, some t, some u, some v, back, false⟩ := by
  unfold Ray.intersectTri at *
  simp only at *
  split_ifs at * <;> simp_all

theorem notParallel_iff (zt : K) (r : Ray K) (c : V3 (V3 K)) :
    NotParallel zt r.direction c ↔ (r.intersectTri zt c.x c.y c.z).parallel = false := by
  rw [← Bool.not_eq_true, C29_parallel, not_lt]
  rfl

theorem clearHit_hit {zt : K} (hzt : 0 < zt) (r : Ray K) (c : V3 (V3 K)) (hp : NotParallel zt r.direction c)
    (h : ClearHit zt r.origin r.direction c) :
    ∃ t u v back, r.intersectTri zt c.x c.y c.z = ⟨true, some t, some u, some v, back, false⟩ ∧ zt ≤ t ∧ zt ≤ u ∧ zt ≤ v ∧
      u + v ≤ 1 - zt ∧ PlaneHit r.origin r.direction c t u v ∧ (back = true ↔ BackFacing r.direction c) := by
  obtain ⟨t, u, v, ⟨hx, hy, hz⟩, h1, h2, h3, h4⟩ := h
  obtain ⟨back, hb⟩ := C29_complete zt hzt r c.x c.y c.z t u v hp (by linarith) (by linarith) (by linarith) (by linarith) hx hy hz
  exact ⟨t, u, v, back, hb, h1, h2, h3, h4, ⟨hx, hy, hz⟩, (C29_hit zt hzt r c.x c.y c.z t u v back hb).2.2.2.2.2⟩

theorem clearMiss_miss {zt : K} (hzt : 0 < zt) (r : Ray K) (c : V3 (V3 K)) (hp : NotParallel zt r.direction c)
    (h : ClearMiss zt r.origin r.direction c) : (r.intersectTri zt c.x c.y c.z).ret = false := by
  by_contra hr
  rw [Bool.not_eq_false] at hr
  obtain ⟨t, u, v, back, he⟩ := triHit_shape zt r _ _ _ hr ((notParallel_iff zt r c).1 hp)
  obtain ⟨h1, h2, h3, h4, h5, -⟩ := C29_hit zt hzt r c.x c.y c.z t u v back he
  rcases h t u v h1 with g | g | g | g <;> linarith

theorem hit_miss_excl {zt : K} (hzt : 0 < zt) {o d : V3 K} {c : V3 (V3 K)} (h : ClearHit zt o d c) (h' : ClearMiss zt o d c) : False := by
  obtain ⟨t, u, v, hp, h1, h2, h3, h4⟩ := h
  rcases h' t u v hp with g | g | g | g <;> linarith

theorem clearHit_inTriangle {zt : K} (hzt : 0 < zt) {o d : V3 K} {c : V3 (V3 K)} (h : ClearHit zt o d c) :
    ∃ q, OnRay o d q ∧ InBox (triBox c) q := by
  obtain ⟨t, u, v, ⟨hx, hy, hz⟩, h1, h2, h3, h4⟩ := h
  refine ⟨⟨o.x + t * d.x, o.y + t * d.y, o.z + t * d.z⟩, ⟨t, by linarith, rfl, rfl, rfl⟩, inTriangle_triBox ?_⟩
  exact ⟨1 - u - v, u, v, by linarith, by linarith, by linarith, by ring, hx, hy, hz⟩

theorem sizable_iff (zt : K) (c : V3 (V3 K)) : Sizable zt c ↔ areaGt c (100 * zt) = true := by
  simp only [Sizable, areaGt, area2, triangleArea2, V3.cross, V3.sub_x, V3.sub_y, V3.sub_z, decide_eq_true_eq, pow_two, gt_iff_lt]

/-- The triangle with this number is counted. -/
def Counts (zt : K) (m : Mesh K) (o d : V3 K) (i : Nat) : Prop :=
  ∃ c, m.corners i = some c ∧ Sizable zt c ∧ ClearHit zt o d c

open Classical in
theorem closedLoop_spec {zt : K} (hzt : 0 < zt) (junk : Nat → V3 K) {m : Mesh K} (hm : m.check = true) (r : Ray K)
    (hc : ∀ i c, m.corners i = some c → Sizable zt c → Clear zt r.origin r.direction c) : ∀ (ids : List Nat) (n : Nat),
    (∀ i ∈ ids, i < m.triangles.length) →
      closedLoop zt junk m r ids n = .ok (decide ((n + ids.countP fun i => decide (Counts zt m r.origin r.direction i)) % 2 = 1), true)
  | [], n, _ => by simp [closedLoop]
  | i :: rest, n, h => by
    obtain ⟨c, hci⟩ := corners_some hm (h i (by simp))
    have ih := fun n => closedLoop_spec hzt junk hm r hc rest n (fun j hj => h j (by simp [hj]))
    rw [closedLoop, cornersAt_ok hci, List.countP_cons]
    simp only
    by_cases hs : Sizable zt c
    · obtain ⟨hp, hh | hh⟩ := hc i c hci hs
      · obtain ⟨t, u, v, back, he, g1, g2, g3, g4, -⟩ := clearHit_hit hzt r c hp hh
        have hcnt : Counts zt m r.origin r.direction i := ⟨c, hci, hs, hh⟩
        rw [(sizable_iff zt c).1 hs, he]
        simp only [Bool.and_self, if_true, Option.getD_some, hcnt, decide_true]
        rw [if_neg (by linarith), if_neg (by push Not; refine ⟨?_, ?_, ?_⟩ <;> linarith), if_neg (by simp), ih]
        congr 4; omega
      · have hcnt : ¬ Counts zt m r.origin r.direction i := by
          rintro ⟨c', h1, -, h2⟩
          rw [hci] at h1; cases h1
          exact hit_miss_excl hzt h2 hh
        rw [clearMiss_miss hzt r c hp hh]
        simp only [Bool.and_false, Bool.false_eq_true, if_false, hcnt, decide_false, Nat.add_zero]
        exact ih n
    · have hcnt : ¬ Counts zt m r.origin r.direction i := by
        rintro ⟨c', h1, h2, -⟩
        rw [hci] at h1; cases h1
        exact hs h2
      have ha : areaGt c (100 * zt) = false := by rw [← Bool.not_eq_true, ← sizable_iff]; exact hs
      rw [ha]
      simp only [Bool.false_and, Bool.false_eq_true, if_false, hcnt, decide_false, Nat.add_zero]
      exact ih n

/-- What the loop of the open test has found so far: nothing, or the nearest of the triangles hit. -/
def Nearest (zt : K) (m : Mesh K) (o d : V3 K) (S : List Nat) (b : Bool) : Prop :=
  (b = false ∧ ∀ i ∈ S, ∀ c, m.corners i = some c → ¬ ClearHit zt o d c) ∨
  ∃ i ∈ S, ∃ c t u v, m.corners i = some c ∧ PlaneHit o d c t u v ∧ zt ≤ t ∧ zt ≤ u ∧ zt ≤ v ∧ u + v ≤ 1 - zt ∧
    (b = true ↔ BackFacing d c) ∧ ∀ j ∈ S, ∀ c' t' u' v', m.corners j = some c' → PlaneHit o d c' t' u' v' → zt ≤ t' → zt ≤ u' →
      zt ≤ v' → u' + v' ≤ 1 - zt → t ≤ t'

/-- The loop has the smallest parameter. -/
def Least (zt maxd : K) (m : Mesh K) (o d : V3 K) (S : List Nat) (t : K) (b : Bool) : Prop :=
  (t = maxd ∧ b = false ∧ ∀ i ∈ S, ∀ c, m.corners i = some c → ¬ ClearHit zt o d c) ∨
  ∃ i ∈ S, ∃ c u v, m.corners i = some c ∧ PlaneHit o d c t u v ∧ zt ≤ t ∧ zt ≤ u ∧ zt ≤ v ∧ u + v ≤ 1 - zt ∧
    (b = true ↔ BackFacing d c) ∧ ∀ j ∈ S, ∀ c' t' u' v', m.corners j = some c' → PlaneHit o d c' t' u' v' → zt ≤ t' → zt ≤ u' →
      zt ≤ v' → u' + v' ≤ 1 - zt → t ≤ t'

theorem planeHit_unique {zt : K} (hzt : 0 < zt) {o d : V3 K} {c : V3 (V3 K)} (hp : NotParallel zt d c) {t u v t' u' v' : K}
    (h : PlaneHit o d c t u v) (h' : PlaneHit o d c t' u' v') : t = t' := by
  have hne : d.x * (area2 c).x + d.y * (area2 c).y + d.z * (area2 c).z ≠ 0 := by
    intro e
    rw [NotParallel, e, abs_zero] at hp
    linarith
  obtain ⟨hx, hy, hz⟩ := h
  obtain ⟨hx', hy', hz'⟩ := h'
  have : (t - t') * (d.x * (area2 c).x + d.y * (area2 c).y + d.z * (area2 c).z) = 0 := by
    simp only [area2, triangleArea2]
    linear_combination (hx - hx') * ((c.y.y - c.x.y) * (c.z.z - c.x.z) - (c.y.z - c.x.z) * (c.z.y - c.x.y)) +
      (hy - hy') * ((c.y.z - c.x.z) * (c.z.x - c.x.x) - (c.y.x - c.x.x) * (c.z.z - c.x.z)) +
      (hz - hz') * ((c.y.x - c.x.x) * (c.z.y - c.x.y) - (c.y.y - c.x.y) * (c.z.x - c.x.x))
  rcases mul_eq_zero.1 this with h | h
  · linarith
  · exact absurd h hne

theorem openLoop_spec {zt maxd : K} (hzt : 0 < zt) {m : Mesh K} (hm : m.check = true) (r : Ray K)
    (hc : ∀ i c, m.corners i = some c → Clear zt r.origin r.direction c ∨ ¬ NotParallel zt r.direction c ∧ ¬ ClearHit zt r.origin r.direction c)
    (hmax : ∀ i c t u v, m.corners i = some c → PlaneHit r.origin r.direction c t u v → zt ≤ t → zt ≤ u → zt ≤ v → u + v ≤ 1 - zt → t < maxd) :
    ∀ (ids S : List Nat) (t : K) (b : Bool), (∀ i ∈ ids, i < m.triangles.length) → Least zt maxd m r.origin r.direction S t b →
      ∃ b', openLoop zt m r ids t b = .ok (b', true) ∧ Nearest zt m r.origin r.direction (S ++ ids) b'
  | [], S, t, b, _, hl => by
    refine ⟨b, rfl, ?_⟩
    rw [List.append_nil]
    rcases hl with ⟨-, h1, h2⟩ | ⟨i, hi, c, u, v, h⟩
    · exact Or.inl ⟨h1, h2⟩
    · exact Or.inr ⟨i, hi, c, t, u, v, h⟩
  | i :: rest, S, t, b, h, hl => by
    obtain ⟨c, hci⟩ := corners_some hm (h i (by simp))
    have ih := fun t b => openLoop_spec hzt hm r hc hmax rest (S ++ [i]) t b (fun j hj => h j (by simp [hj]))
    rw [List.append_assoc, List.singleton_append] at ih
    -- a triangle that is not hit changes nothing
    have skip : ¬ ClearHit zt r.origin r.direction c → Least zt maxd m r.origin r.direction (S ++ [i]) t b := by
      intro hn
      rcases hl with ⟨h0, h1, h2⟩ | ⟨j, hj, c', u, v, g1, g2, g3, g4, g5, g6, g7, g8⟩
      · refine Or.inl ⟨h0, h1, fun j hj c' hc' => ?_⟩
        rcases List.mem_append.1 hj with hj | hj
        · exact h2 j hj c' hc'
        · rw [List.mem_singleton.1 hj, hci] at hc'; cases hc'; exact hn
      · refine Or.inr ⟨j, List.mem_append_left _ hj, c', u, v, g1, g2, g3, g4, g5, g6, g7, fun k hk c'' t' u' v' a1 a2 a3 a4 a5 a6 => ?_⟩
        rcases List.mem_append.1 hk with hk | hk
        · exact g8 k hk c'' t' u' v' a1 a2 a3 a4 a5 a6
        · rw [List.mem_singleton.1 hk, hci] at a1; cases a1
          exact absurd ⟨t', u', v', a2, a3, a4, a5, a6⟩ hn
    rw [openLoop, cornersAt_ok hci]
    simp only
    rcases hc i c hci with ⟨hp, hh | hh⟩ | ⟨hp, hh⟩
    · obtain ⟨t1, u1, v1, back, he, g1, g2, g3, g4, g5, g6⟩ := clearHit_hit hzt r c hp hh
      rw [he]
      simp only
      rw [if_neg (by linarith), if_neg (by push Not; refine ⟨?_, ?_, ?_⟩ <;> linarith)]
      split
      · rename_i hlt
        refine ih t1 back (Or.inr ⟨i, by simp, c, u1, v1, hci, g5, g1, g2, g3, g4, g6, fun k hk c'' t' u' v' a1 a2 a3 a4 a5 a6 => ?_⟩)
        rcases List.mem_append.1 hk with hk | hk
        · rcases hl with ⟨h0, h1, h2⟩ | ⟨j, hj, c', u, v, b1, b2, b3, b4, b5, b6, b7, b8⟩
          · exact absurd ⟨t', u', v', a2, a3, a4, a5, a6⟩ (h2 k hk c'' a1)
          · exact hlt.le.trans (b8 k hk c'' t' u' v' a1 a2 a3 a4 a5 a6)
        · rw [List.mem_singleton.1 hk, hci] at a1; cases a1
          exact (planeHit_unique hzt hp g5 a2).le
      · rename_i hlt
        rcases hl with ⟨h0, h1, h2⟩ | ⟨j, hj, c', u, v, b1, b2, b3, b4, b5, b6, b7, b8⟩
        · exact absurd (h0 ▸ hmax i c t1 u1 v1 hci g5 g1 g2 g3 g4) hlt
        · refine ih t b (Or.inr ⟨j, List.mem_append_left _ hj, c', u, v, b1, b2, b3, b4, b5, b6, b7, fun k hk c'' t' u' v' a1 a2 a3 a4 a5 a6 => ?_⟩)
          rcases List.mem_append.1 hk with hk | hk
          · exact b8 k hk c'' t' u' v' a1 a2 a3 a4 a5 a6
          · rw [List.mem_singleton.1 hk, hci] at a1; cases a1
            rw [← planeHit_unique hzt hp g5 a2]
            exact not_lt.1 hlt
    · have hr := clearMiss_miss hzt r c hp hh
      cases hx : r.intersectTri zt c.x c.y c.z with
      | mk a0 a1 a2 a3 a4 a5 =>
        rw [hx] at hr
        simp only at hr
        subst hr
        exact ih t b (skip fun hh' => hit_miss_excl hzt hh' hh)
    · have hr : (r.intersectTri zt c.x c.y c.z).parallel = true := by
        rw [← Bool.not_eq_false]; exact fun e => hp ((notParallel_iff zt r c).2 e)
      rw [C29_parallel_writes_nothing zt r _ _ _ hr]
      exact ih t b (skip hh)

end QuESo.GQ
