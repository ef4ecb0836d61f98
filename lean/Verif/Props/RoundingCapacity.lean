import Verif.Props.RoundingClipper

/-!
# C115: triangles for which clipping in floating-point arithmetic never fails
-/
namespace QuESo.Props
open QuESo.Spec QuESo.Round QuESo.Clip QuESo.Cyc

section
variable {rnd : ℚ → ℚ} {eps : ℚ} {big : Nat}

/-- `m` lies between `a` and `b`. -/
def Mid (a b m : ℚ) : Prop := (a ≤ m ∧ m ≤ b) ∨ (b ≤ m ∧ m ≤ a)

theorem Mid.symm {a b m : ℚ} (h : Mid a b m) : Mid b a m := Or.symm h

/-- Rounded coordinates between those of `ml` and `mu`. -/
structure Good (rnd : ℚ → ℚ) (ml mu : V3 ℚ) (p : V3 ℚ) : Prop where
  exact : ∀ i, rnd (p.get i) = p.get i
  lower : ∀ i, ml.get i ≤ p.get i
  upper : ∀ i, p.get i ≤ mu.get i

/-- The interpolated number lies between the ends if the parameter stays away from one. -/
theorem lerp_mid (hr : IsRounding rnd eps big) (he : eps ≤ 1 / 1000) (fused : Bool) {a b t : ℚ} (ha : rnd a = a) (hb : rnd b = b) (t0 : 0 ≤ t) (t1 : t ≤ 1 - 21 / 10 * eps) :
    Mid a b (lerpR rnd fused a b t) := by
  have e0 := eps_nonneg hr
  have t1' : t ≤ 1 := by linarith
  have hd := abs_le.1 (hr.error (b - a))
  have hee : eps * eps ≤ 1 / 1000 * eps := mul_le_mul_of_nonneg_right he e0
  have hee0 : 0 ≤ eps * eps := mul_nonneg e0 e0
  have hee3 : eps * (eps * eps) ≤ 1 / 1000 * (eps * eps) := mul_le_mul_of_nonneg_right he hee0
  have hee30 : 0 ≤ eps * (eps * eps) := mul_nonneg e0 hee0
  have hfac : (1 + eps) * (1 + eps) * t ≤ 1 := by
    have : (1 + eps) * (1 + eps) * t ≤ (1 + eps) * (1 + eps) * (1 - 21 / 10 * eps) := mul_le_mul_of_nonneg_left t1 (by positivity)
    have e : (1 + eps) * (1 + eps) * (1 - 21 / 10 * eps) = 1 - 1 / 10 * eps - 32 / 10 * (eps * eps) - 21 / 10 * (eps * (eps * eps)) := by ring
    linarith
  rcases le_total 0 (b - a) with h | h
  · left
    rw [abs_of_nonneg h] at hd
    have r0 := rnd_nonneg hr h
    have p0 : 0 ≤ t * rnd (b - a) := mul_nonneg t0 r0
    have r1 : rnd (b - a) ≤ (1 + eps) * (b - a) := by linarith
    have p1 : t * rnd (b - a) ≤ t * ((1 + eps) * (b - a)) := mul_le_mul_of_nonneg_left r1 t0
    have p2 : (1 + eps) * (t * rnd (b - a)) ≤ b - a := by
      have := mul_le_mul_of_nonneg_left p1 (by linarith : 0 ≤ 1 + eps)
      have q := mul_le_mul_of_nonneg_right hfac h
      have e : (1 + eps) * (t * ((1 + eps) * (b - a))) = (1 + eps) * (1 + eps) * t * (b - a) := by ring
      linarith
    have p3 : t * rnd (b - a) ≤ b - a := by
      have := mul_nonneg e0 p0
      linarith
    have p4 := abs_le.1 (hr.error (t * rnd (b - a)))
    rw [abs_of_nonneg p0] at p4
    have p5 := rnd_nonneg hr p0
    unfold lerpR
    split
    · have u1 := hr.mono a (a + t * rnd (b - a)) (by linarith)
      have u2 := hr.mono (a + t * rnd (b - a)) b (by linarith)
      rw [ha] at u1; rw [hb] at u2
      exact ⟨u1, u2⟩
    · have u1 := hr.mono a (a + rnd (t * rnd (b - a))) (by linarith)
      have u2 := hr.mono (a + rnd (t * rnd (b - a))) b (by linarith)
      rw [ha] at u1; rw [hb] at u2
      exact ⟨u1, u2⟩
  · right
    rw [abs_of_nonpos h] at hd
    have r0 := rnd_nonpos hr h
    have p0 : t * rnd (b - a) ≤ 0 := mul_nonpos_of_nonneg_of_nonpos t0 r0
    have r1 : (1 + eps) * (b - a) ≤ rnd (b - a) := by linarith
    have p1 : t * ((1 + eps) * (b - a)) ≤ t * rnd (b - a) := mul_le_mul_of_nonneg_left r1 t0
    have p2 : b - a ≤ (1 + eps) * (t * rnd (b - a)) := by
      have := mul_le_mul_of_nonneg_left p1 (by linarith : 0 ≤ 1 + eps)
      have q := mul_le_mul_of_nonneg_right hfac (by linarith : 0 ≤ -(b - a))
      have e : (1 + eps) * (t * ((1 + eps) * (b - a))) = (1 + eps) * (1 + eps) * t * (b - a) := by ring
      linarith
    have p3 : b - a ≤ t * rnd (b - a) := by
      have := mul_nonneg e0 (by linarith : 0 ≤ -(t * rnd (b - a)))
      linarith
    have p4 := abs_le.1 (hr.error (t * rnd (b - a)))
    rw [abs_of_nonpos p0] at p4
    have p5 := rnd_nonpos hr p0
    unfold lerpR
    split
    · have u1 := hr.mono (a + t * rnd (b - a)) a (by linarith)
      have u2 := hr.mono b (a + t * rnd (b - a)) (by linarith)
      rw [ha] at u1; rw [hb] at u2
      exact ⟨u2, u1⟩
    · have u1 := hr.mono (a + rnd (t * rnd (b - a))) a (by linarith)
      have u2 := hr.mono b (a + rnd (t * rnd (b - a))) (by linarith)
      rw [ha] at u1; rw [hb] at u2
      exact ⟨u2, u1⟩

theorem tol_lower (hr : IsRounding rnd eps big) (he : eps ≤ 1 / 1000) {zt : ℚ} (hz : 0 ≤ zt) : 999 / 100 * zt ≤ rnd (10 * zt) := by
  have e := hr.error (10 * zt)
  rw [abs_of_nonneg (by linarith : (0 : ℚ) ≤ 10 * zt)] at e
  have := mul_le_mul_of_nonneg_right he (by linarith : (0 : ℚ) ≤ 10 * zt)
  have := (abs_le.1 e).1
  linarith

theorem front_far (hr : IsRounding rnd eps big) (he : eps ≤ 1 / 1000) {p : V3 ℚ} {pl : Plane ℚ} {tol : ℚ} (ht : 0 ≤ tol) (h : classifyR rnd p pl tol = .front) : 998 / 1000 * tol ≤ dist pl p := by
  have h0 := front_pos hr ht h
  rw [classifyR_eq] at h
  split at h
  · have e := (abs_le.1 (hr.error (dist pl p))).2
    rw [abs_of_pos h0] at e
    have := mul_le_mul_of_nonneg_right he h0.le
    linarith
  · split at h <;> cases h

theorem behind_far (hr : IsRounding rnd eps big) (he : eps ≤ 1 / 1000) {p : V3 ℚ} {pl : Plane ℚ} {tol : ℚ} (ht : 0 ≤ tol) (h : classifyR rnd p pl tol = .behind) : dist pl p ≤ -(998 / 1000 * tol) := by
  have h0 := behind_neg hr ht h
  rw [classifyR_eq] at h
  split at h
  · cases h
  · split at h
    · have e := (abs_le.1 (hr.error (dist pl p))).1
      rw [abs_of_neg h0] at e
      have := mul_le_mul_of_nonneg_right he (by linarith : 0 ≤ -dist pl p)
      linarith
    · cases h

/-- The parameter stays away from one. -/
theorem param_away (hr : IsRounding rnd eps big) (hb : 1 ≤ big) (he : eps ≤ 1 / 1000) {L g pos a b : ℚ} (hab : |b - a| ≤ L) (hg : 52 / 10 * eps * L ≤ g) (hg0 : 0 < g)
    (h : (a + g ≤ pos ∧ pos + g ≤ b) ∨ (b + g ≤ pos ∧ pos + g ≤ a)) : 0 ≤ paramR rnd pos a b ∧ paramR rnd pos a b ≤ 1 - 21 / 10 * eps := by
  obtain ⟨t, s, n⟩ := param_near hr hb he (a := a) (b := b) (pos := pos) (by rcases h with ⟨h1, h2⟩ | ⟨h1, h2⟩ <;> [left; right] <;> constructor <;> linarith)
  refine ⟨t.1, ?_⟩
  have e0 := eps_nonneg hr
  have key : (pos - a) / (b - a) ≤ 1 - 52 / 10 * eps := by
    rw [abs_le] at hab
    rcases h with ⟨h1, h2⟩ | ⟨h1, h2⟩
    · have hd : 0 < b - a := by linarith
      rw [div_le_iff₀ hd]
      have : eps * (b - a) ≤ eps * L := mul_le_mul_of_nonneg_left (by linarith) e0
      linarith
    · have hd : b - a < 0 := by linarith
      rw [div_le_iff_of_neg hd]
      have : eps * (a - b) ≤ eps * L := mul_le_mul_of_nonneg_left (by linarith) e0
      linarith
  have := (abs_le.1 n).2
  linarith

/-- The two vertices are on different sides of the plane. -/
def Cross (rnd : ℚ → ℚ) (zt : ℚ) (pl : Plane ℚ) (a b : V3 ℚ) : Prop :=
  (classifyR rnd a pl (rnd (10 * zt)) = .behind ∧ classifyR rnd b pl (rnd (10 * zt)) = .front) ∨ (classifyR rnd a pl (rnd (10 * zt)) = .front ∧ classifyR rnd b pl (rnd (10 * zt)) = .behind)

/-- The new vertex has rounded coordinates between those of the ends of the edge. -/
theorem crossing_mid (hr : IsRounding rnd eps big) (hb : 1 ≤ big) (he : eps ≤ 1 / 1000) (fused : Bool) {zt : ℚ} {ml mu : V3 ℚ} (hz : 0 < zt) (hM : ∀ i, 3 * eps * (mu.get i - ml.get i) ≤ 5 * zt) {a b : Vtx ℚ} {pl : Plane ℚ}
    (hp : rnd pl.position = pl.position) (ha : Good rnd ml mu a.pt) (hb' : Good rnd ml mu b.pt) (h : Cross rnd zt pl a.pt b.pt) :
    ∃ r, crossingR rnd fused zt a b pl = .ok (Vtx.set ⟨r, fun j => decide (j < pl.index) && (a.on j && b.on j)⟩ pl.index) ∧ Good rnd ml mu r ∧ ∀ i, Mid (a.pt.get i) (b.pt.get i) (r.get i) := by
  have e0 := eps_nonneg hr
  obtain ⟨q0, -⟩ := tol_bounds hr he hz.le
  have q1 := tol_lower hr he hz.le
  have hsides : (dist pl a.pt ≤ -(998 / 1000 * rnd (10 * zt)) ∧ 998 / 1000 * rnd (10 * zt) ≤ dist pl b.pt) ∨ (dist pl b.pt ≤ -(998 / 1000 * rnd (10 * zt)) ∧ 998 / 1000 * rnd (10 * zt) ≤ dist pl a.pt) := by
    rcases h with ⟨h1, h2⟩ | ⟨h1, h2⟩
    · exact Or.inl ⟨behind_far hr he q0 h1, front_far hr he q0 h2⟩
    · exact Or.inr ⟨behind_far hr he q0 h2, front_far hr he q0 h1⟩
  have hpar := param_away hr hb he (g := 998 / 1000 * rnd (10 * zt)) (pos := pl.position) (abs_le.2 ⟨by linarith [ha.upper (pl.index / 2), hb'.lower (pl.index / 2)], by linarith [ha.lower (pl.index / 2), hb'.upper (pl.index / 2)]⟩ : |b.pt.get (pl.index / 2) - a.pt.get (pl.index / 2)| ≤ mu.get (pl.index / 2) - ml.get (pl.index / 2))
    (by linarith [hM (pl.index / 2)]) (by linarith) (by
    unfold Clip.dist at hsides
    split at hsides <;> rcases hsides with ⟨h1, h2⟩ | ⟨h1, h2⟩
    · right; constructor <;> linarith
    · left; constructor <;> linarith
    · left; constructor <;> linarith
    · right; constructor <;> linarith)
  have hpos : Mid (a.pt.get (pl.index / 2)) (b.pt.get (pl.index / 2)) pl.position := by
    unfold Clip.dist at hsides
    split at hsides <;> rcases hsides with ⟨h1, h2⟩ | ⟨h1, h2⟩
    · right; constructor <;> linarith
    · left; constructor <;> linarith
    · left; constructor <;> linarith
    · right; constructor <;> linarith
  set t := paramR rnd pl.position (a.pt.get (pl.index / 2)) (b.pt.get (pl.index / 2)) with htd
  have ht : 0 ≤ t ∧ t ≤ 1 := ⟨hpar.1, by linarith [hpar.2]⟩
  let r : V3 ℚ := ⟨lerpR rnd fused a.pt.x b.pt.x t, lerpR rnd fused a.pt.y b.pt.y t, lerpR rnd fused a.pt.z b.pt.z t⟩
  have hget : ∀ i, r.get i = lerpR rnd fused (a.pt.get i) (b.pt.get i) t := by
    intro i
    match i with
    | 0 => rfl
    | 1 => rfl
    | _ + 2 => rfl
  have hmid : ∀ i, Mid (a.pt.get i) (b.pt.get i) (r.get i) := by
    intro i
    rw [hget]
    exact lerp_mid hr he fused (ha.exact i) (hb'.exact i) hpar.1 hpar.2
  have hex : ∀ i, rnd (r.get i) = r.get i := by
    intro i
    rw [hget]
    unfold lerpR
    split <;> exact hr.twice _
  have good : ∀ q : V3 ℚ, (∀ i, rnd (q.get i) = q.get i) → (∀ i, Mid (a.pt.get i) (b.pt.get i) (q.get i)) → Good rnd ml mu q := by
    intro q h1 h2
    refine ⟨h1, fun i => ?_, fun i => ?_⟩
    · rcases h2 i with ⟨m1, m2⟩ | ⟨m1, m2⟩ <;> linarith [ha.lower i, hb'.lower i]
    · rcases h2 i with ⟨m1, m2⟩ | ⟨m1, m2⟩ <;> linarith [ha.upper i, hb'.upper i]
  by_cases hc : classifyR rnd r pl zt = .on
  · refine ⟨r, ?_, good r hex hmid, hmid⟩
    unfold crossingR intersectionR
    simp only [← htd]
    rw [if_pos ht, if_neg (by simpa [r] using hc)]
    rfl
  · have hmid2 : ∀ i, Mid (a.pt.get i) (b.pt.get i) ((r.set (pl.index / 2) pl.position).get i) := by
      intro i
      rcases get_setR r (pl.index / 2) i pl.position with h1 | ⟨h1, h2⟩
      · rw [h1]; exact hmid i
      · rw [h1, h2, h2]; exact hpos
    refine ⟨r.set (pl.index / 2) pl.position, ?_, good _ ?_ hmid2, hmid2⟩
    · unfold crossingR intersectionR
      simp only [← htd]
      rw [if_pos ht, if_pos (by simpa [r] using hc)]
      rfl
    · intro i
      rcases get_setR r (pl.index / 2) i pl.position with h1 | ⟨h1, h2⟩
      · rw [h1]; exact hex i
      · rw [h1]; exact hp

/-! ## The clip as a clip of cyclic lists -/

/-- The new vertex. -/
def midR (rnd : ℚ → ℚ) (fused : Bool) (zt : ℚ) (pl : Plane ℚ) (a b : Vtx ℚ) : Vtx ℚ := match crossingR rnd fused zt a b pl with | .ok m => m | .error _ => a

def behindR (rnd : ℚ → ℚ) (zt : ℚ) (pl : Plane ℚ) (v : Vtx ℚ) : Bool := decide (classifyR rnd v.pt pl (rnd (10 * zt)) = .behind)

def entryR (rnd : ℚ → ℚ) (fused : Bool) (zt : ℚ) (pl : Plane ℚ) (a b : Vtx ℚ) : Vtx ℚ := if classifyR rnd b.pt pl (rnd (10 * zt)) = .on then b.set pl.index else midR rnd fused zt pl a b

def exitR (rnd : ℚ → ℚ) (fused : Bool) (zt : ℚ) (pl : Plane ℚ) (a b : Vtx ℚ) : Vtx ℚ := if classifyR rnd a.pt pl (rnd (10 * zt)) = .on then a.set pl.index else midR rnd fused zt pl a b

/-- Like `entryR`, but only for vertices with rounded coordinates of bounded size. -/
noncomputable def entryG (rnd : ℚ → ℚ) (fused : Bool) (zt : ℚ) (ml mu : V3 ℚ) (pl : Plane ℚ) (a b : Vtx ℚ) : Vtx ℚ := by
  classical exact if Good rnd ml mu a.pt ∧ Good rnd ml mu b.pt then entryR rnd fused zt pl a b else b

noncomputable def exitG (rnd : ℚ → ℚ) (fused : Bool) (zt : ℚ) (ml mu : V3 ℚ) (pl : Plane ℚ) (a b : Vtx ℚ) : Vtx ℚ := by
  classical exact if Good rnd ml mu a.pt ∧ Good rnd ml mu b.pt then exitR rnd fused zt pl a b else a

/-- The clipped polygon. -/
noncomputable def cutR (rnd : ℚ → ℚ) (fused : Bool) (zt : ℚ) (ml mu : V3 ℚ) (pl : Plane ℚ) (l : List (Vtx ℚ)) : List (Vtx ℚ) := clip (behindR rnd zt pl) (entryG rnd fused zt ml mu pl) (exitG rnd fused zt ml mu pl) l

theorem clipLoopR_eq (hr : IsRounding rnd eps big) (hb : 1 ≤ big) (he : eps ≤ 1 / 1000) (fused : Bool) {zt : ℚ} {ml mu : V3 ℚ} (hz : 0 < zt) (hM : ∀ i, 3 * eps * (mu.get i - ml.get i) ≤ 5 * zt) {pl : Plane ℚ}
    (hp : rnd pl.position = pl.position) (a : Vtx ℚ) (r cur : List (Vtx ℚ)) (ha : Good rnd ml mu a.pt) (hg : ∀ v ∈ r, Good rnd ml mu v.pt)
    (h : cur.length + (emits (behindR rnd zt pl) (entryG rnd fused zt ml mu pl) (exitG rnd fused zt ml mu pl) a r).length ≤ 9) :
    clipLoopR rnd fused zt pl a r cur = .ok (cur ++ emits (behindR rnd zt pl) (entryG rnd fused zt ml mu pl) (exitG rnd fused zt ml mu pl) a r) := by
  have add : ∀ (p : List (Vtx ℚ)) v, p.length + 1 ≤ 9 → addVertexR p v = .ok (p ++ [v]) := by
    intro p v h
    unfold addVertexR capacity
    rw [if_neg (by omega)]
  induction r generalizing a cur with
  | nil => simp [clipLoopR, emits]
  | cons b r ih =>
    have gb := hg b (by simp)
    have gab : Good rnd ml mu a.pt ∧ Good rnd ml mu b.pt := ⟨ha, gb⟩
    simp only [emits, List.length_append] at h
    have e : clipStepR rnd fused zt pl a b cur = .ok (cur ++ edge (behindR rnd zt pl) (entryG rnd fused zt ml mu pl) (exitG rnd fused zt ml mu pl) a b) := by
      have ex : entryG rnd fused zt ml mu pl a b = entryR rnd fused zt pl a b := by unfold entryG; rw [if_pos gab]
      have ey : exitG rnd fused zt ml mu pl a b = exitR rnd fused zt pl a b := by unfold exitG; rw [if_pos gab]
      have ed : edge (behindR rnd zt pl) (entryG rnd fused zt ml mu pl) (exitG rnd fused zt ml mu pl) a b = edge (behindR rnd zt pl) (entryR rnd fused zt pl) (exitR rnd fused zt pl) a b := by
        unfold edge; rw [ex, ey]
      rw [ed] at h ⊢
      have cr : Cross rnd zt pl a.pt b.pt → crossingR rnd fused zt a b pl = .ok (midR rnd fused zt pl a b) := by
        intro hc
        obtain ⟨r, hr', -, -⟩ := crossing_mid hr hb he fused hz hM hp ha gb hc
        unfold midR; rw [hr']
      unfold clipStepR
      cases hcb : classifyR rnd b.pt pl (rnd (10 * zt)) <;> cases hca : classifyR rnd a.pt pl (rnd (10 * zt)) <;> simp only
      all_goals
        first
        | (have e : edge (behindR rnd zt pl) (entryR rnd fused zt pl) (exitR rnd fused zt pl) a b = [] := by simp [edge, behindR, hca, hcb]
           rw [e, List.append_nil])
        | (have e : edge (behindR rnd zt pl) (entryR rnd fused zt pl) (exitR rnd fused zt pl) a b = [b] := by simp [edge, behindR, hca, hcb]
           rw [e] at h ⊢
           simp only [List.length_cons, List.length_nil] at h
           exact add _ _ (by omega))
        | (have e : edge (behindR rnd zt pl) (entryR rnd fused zt pl) (exitR rnd fused zt pl) a b = [b.set pl.index] := by simp [edge, behindR, entryR, hca, hcb]
           rw [e] at h ⊢
           simp only [List.length_cons, List.length_nil] at h
           exact add _ _ (by omega))
        | (have e : edge (behindR rnd zt pl) (entryR rnd fused zt pl) (exitR rnd fused zt pl) a b = [a.set pl.index, b] := by simp [edge, behindR, exitR, hca, hcb]
           rw [e] at h ⊢
           simp only [List.length_cons, List.length_nil] at h
           rw [add _ _ (by omega)]
           show addVertexR _ _ = _
           rw [add _ _ (by simp; omega)]
           simp)
        | (have e : edge (behindR rnd zt pl) (entryR rnd fused zt pl) (exitR rnd fused zt pl) a b = [midR rnd fused zt pl a b] := by simp [edge, behindR, entryR, hca, hcb]
           rw [e] at h ⊢
           rw [cr (Or.inl ⟨hca, hcb⟩)]
           simp only [List.length_cons, List.length_nil] at h
           show addVertexR _ _ = _
           exact add _ _ (by omega))
        | (have e : edge (behindR rnd zt pl) (entryR rnd fused zt pl) (exitR rnd fused zt pl) a b = [midR rnd fused zt pl a b, b] := by simp [edge, behindR, exitR, hca, hcb]
           rw [e] at h ⊢
           rw [cr (Or.inr ⟨hca, hcb⟩)]
           simp only [List.length_cons, List.length_nil] at h
           show (addVertexR _ _).bind _ = _
           rw [add _ _ (by omega)]
           show addVertexR _ _ = _
           rw [add _ _ (by simp; omega)]
           simp)
    rw [clipLoopR, e]
    show clipLoopR rnd fused zt pl b r _ = _
    rw [ih b _ gb (fun v hv => hg v (by simp [hv])) (by rw [List.length_append]; omega)]
    simp [emits]

theorem clipPlaneR_eq (hr : IsRounding rnd eps big) (hb : 1 ≤ big) (he : eps ≤ 1 / 1000) (fused : Bool) {zt : ℚ} {ml mu : V3 ℚ} (hz : 0 < zt) (hM : ∀ i, 3 * eps * (mu.get i - ml.get i) ≤ 5 * zt) {pl : Plane ℚ}
    (hp : rnd pl.position = pl.position) (l : List (Vtx ℚ)) (hg : ∀ v ∈ l, Good rnd ml mu v.pt) (h : (cutR rnd fused zt ml mu pl l).length ≤ 9) :
    clipPlaneR rnd fused zt pl l = .ok (cutR rnd fused zt ml mu pl l) := by
  cases l with
  | nil => rfl
  | cons b l =>
    unfold clipPlaneR
    have hmem : lastD b l ∈ b :: l := by
      rcases lastD_mem b l with e | e
      · rw [e]; exact List.mem_cons_self
      · exact List.mem_cons_of_mem _ e
    rw [getLast?_eq]
    simp only
    rw [clipLoopR_eq hr hb he fused hz hM hp _ _ _ (hg _ hmem) hg]
    · rfl
    · simp only [List.length_nil, Nat.zero_add]; exact h

/-- A label of points that is the same at a point whose coordinates lie between those of two points with the same label. -/
def BoxLabel (f : V3 ℚ → Bool) : Prop := ∀ a b m : V3 ℚ, (∀ i, Mid (a.get i) (b.get i) (m.get i)) → f a = f b → f m = f a

theorem behind_boxLabel (hr : IsRounding rnd eps big) (he : eps ≤ 1 / 1000) {zt : ℚ} (hz : 0 ≤ zt) (pl : Plane ℚ) : BoxLabel (fun p => decide (classifyR rnd p pl (rnd (10 * zt)) = .behind)) := by
  obtain ⟨q0, -⟩ := tol_bounds hr he hz
  have key : ∀ p, classifyR rnd p pl (rnd (10 * zt)) = .behind ↔ rnd (dist pl p) < -rnd (10 * zt) := by
    intro p
    rw [classifyR_eq]
    constructor
    · intro h
      split at h
      · cases h
      · split at h
        · assumption
        · cases h
    · intro h
      rw [if_neg (by linarith), if_pos h]
  intro a b m hm hab
  simp only [decide_eq_decide, key] at hab ⊢
  have hdm : (dist pl a ≤ dist pl m ∧ dist pl m ≤ dist pl b) ∨ (dist pl b ≤ dist pl m ∧ dist pl m ≤ dist pl a) := by
    have := hm (pl.index / 2)
    unfold Mid at this
    unfold Clip.dist
    split <;> rcases this with ⟨h1, h2⟩ | ⟨h1, h2⟩
    · right; constructor <;> linarith
    · left; constructor <;> linarith
    · left; constructor <;> linarith
    · right; constructor <;> linarith
  rcases hdm with ⟨h1, h2⟩ | ⟨h1, h2⟩
  · have g1 := hr.mono _ _ h1
    have g2 := hr.mono _ _ h2
    exact ⟨fun h => lt_of_le_of_lt g1 h, fun h => lt_of_le_of_lt g2 (hab.1 h)⟩
  · have g1 := hr.mono _ _ h1
    have g2 := hr.mono _ _ h2
    exact ⟨fun h => hab.2 (lt_of_le_of_lt g1 h), fun h => lt_of_le_of_lt g2 h⟩

theorem cross_of_behind {zt : ℚ} {pl : Plane ℚ} {a b : Vtx ℚ} (hA : behindR rnd zt pl a = true) (hB : behindR rnd zt pl b = false) (hn : ¬ classifyR rnd b.pt pl (rnd (10 * zt)) = .on) :
    Cross rnd zt pl a.pt b.pt ∧ Cross rnd zt pl b.pt a.pt := by
  unfold behindR at hA hB
  simp only [decide_eq_true_eq, decide_eq_false_iff_not] at hA hB
  cases h : classifyR rnd b.pt pl (rnd (10 * zt))
  · exact ⟨Or.inl ⟨hA, h⟩, Or.inr ⟨h, hA⟩⟩
  · exact absurd h hB
  · exact absurd h hn

theorem between_boxLabel (hr : IsRounding rnd eps big) (hb : 1 ≤ big) (he : eps ≤ 1 / 1000) (fused : Bool) {zt : ℚ} {ml mu : V3 ℚ} (hz : 0 < zt) (hM : ∀ i, 3 * eps * (mu.get i - ml.get i) ≤ 5 * zt) {pl : Plane ℚ}
    (hp : rnd pl.position = pl.position) {f : V3 ℚ → Bool} (hf : BoxLabel f) : Between (behindR rnd zt pl) (entryG rnd fused zt ml mu pl) (exitG rnd fused zt ml mu pl) (fun v => f v.pt) := by
  constructor
  · intro a b hA hB
    unfold entryG
    split
    · rename_i g
      unfold entryR
      split
      · simp [Vtx.set, dd_self]
      · rename_i hn
        obtain ⟨r, h1, -, h3⟩ := crossing_mid hr hb he fused hz hM hp g.1 g.2 (cross_of_behind hA hB hn).1
        refine dd_between fun e => ?_
        unfold midR; rw [h1]
        exact hf _ _ _ h3 e
    · simp [dd_self]
  · intro a b hA hB
    unfold exitG
    split
    · rename_i g
      unfold exitR
      split
      · simp [Vtx.set, dd_self]
      · rename_i hn
        obtain ⟨r, h1, -, h3⟩ := crossing_mid hr hb he fused hz hM hp g.1 g.2 (cross_of_behind hB hA hn).2
        refine dd_between fun e => ?_
        unfold midR; rw [h1]
        exact hf _ _ _ h3 e
    · simp [dd_self]

theorem good_cut (hr : IsRounding rnd eps big) (hb : 1 ≤ big) (he : eps ≤ 1 / 1000) (fused : Bool) {zt : ℚ} {ml mu : V3 ℚ} (hz : 0 < zt) (hM : ∀ i, 3 * eps * (mu.get i - ml.get i) ≤ 5 * zt) {pl : Plane ℚ}
    (hp : rnd pl.position = pl.position) {l : List (Vtx ℚ)} (hg : ∀ v ∈ l, Good rnd ml mu v.pt) : ∀ v ∈ cutR rnd fused zt ml mu pl l, Good rnd ml mu v.pt := by
  intro v hv
  rcases clip_mem hv with ⟨h1, _⟩ | ⟨a, ha, b, hb', ⟨hA, hB, rfl⟩ | ⟨hA, hB, rfl⟩⟩
  · exact hg v h1
  · unfold entryG
    split
    · unfold entryR
      split
      · exact hg b hb'
      · rename_i g hn
        obtain ⟨r, h1, h2, -⟩ := crossing_mid hr hb he fused hz hM hp g.1 g.2 (cross_of_behind hA hB hn).1
        unfold midR; rw [h1]
        exact h2
    · exact hg b hb'
  · unfold exitG
    split
    · unfold exitR
      split
      · exact hg a ha
      · rename_i g hn
        obtain ⟨r, h1, h2, -⟩ := crossing_mid hr hb he fused hz hM hp g.1 g.2 (cross_of_behind hB hA hn).2
        unfold midR; rw [h1]
        exact h2
    · exact hg a ha

/-- The state of the polygon before the plane with index `k`. -/
structure InvR (rnd : ℚ → ℚ) (ml mu : V3 ℚ) (k : Nat) (l : List (Vtx ℚ)) : Prop where
  len : l.length = 0 ∨ (3 ≤ l.length ∧ l.length ≤ 3 + k)
  good : ∀ v ∈ l, Good rnd ml mu v.pt
  labels : ∀ f : V3 ℚ → Bool, BoxLabel f → cyc (fun v => f v.pt) l ≤ 2
  fresh : ∀ v ∈ l, ∀ j, k ≤ j → v.on j = false
  arc : ∀ j < k, ∀ f : V3 ℚ → Bool, BoxLabel f → cyc (fun v => v.on j && f v.pt) l ≤ 2
  unflagged : ∀ j < k, l ≠ [] → ∃ v ∈ l, v.on j = false

theorem entryG_on (hr : IsRounding rnd eps big) (hb : 1 ≤ big) (he : eps ≤ 1 / 1000) (fused : Bool) {zt : ℚ} {ml mu : V3 ℚ} (hz : 0 < zt) (hM : ∀ i, 3 * eps * (mu.get i - ml.get i) ≤ 5 * zt) {pl : Plane ℚ}
    (hp : rnd pl.position = pl.position) {a b : Vtx ℚ} (hA : behindR rnd zt pl a = true) (hB : behindR rnd zt pl b = false) {j : Nat} (hj : j ≠ pl.index) :
    ((entryG rnd fused zt ml mu pl a b).pt = b.pt ∧ (entryG rnd fused zt ml mu pl a b).on j = b.on j) ∨
      ((∀ i, Mid (a.pt.get i) (b.pt.get i) ((entryG rnd fused zt ml mu pl a b).pt.get i)) ∧ (entryG rnd fused zt ml mu pl a b).on j = (decide (j < pl.index) && (a.on j && b.on j))) := by
  unfold entryG
  split
  · rename_i g
    unfold entryR
    split
    · left; simp [Vtx.set, hj]
    · rename_i hn
      obtain ⟨r, h1, -, h3⟩ := crossing_mid hr hb he fused hz hM hp g.1 g.2 (cross_of_behind hA hB hn).1
      right
      unfold midR; rw [h1]
      exact ⟨h3, by simp [Vtx.set, hj]⟩
  · exact Or.inl ⟨rfl, rfl⟩

theorem exitG_on (hr : IsRounding rnd eps big) (hb : 1 ≤ big) (he : eps ≤ 1 / 1000) (fused : Bool) {zt : ℚ} {ml mu : V3 ℚ} (hz : 0 < zt) (hM : ∀ i, 3 * eps * (mu.get i - ml.get i) ≤ 5 * zt) {pl : Plane ℚ}
    (hp : rnd pl.position = pl.position) {a b : Vtx ℚ} (hA : behindR rnd zt pl a = false) (hB : behindR rnd zt pl b = true) {j : Nat} (hj : j ≠ pl.index) :
    ((exitG rnd fused zt ml mu pl a b).pt = a.pt ∧ (exitG rnd fused zt ml mu pl a b).on j = a.on j) ∨
      ((∀ i, Mid (a.pt.get i) (b.pt.get i) ((exitG rnd fused zt ml mu pl a b).pt.get i)) ∧ (exitG rnd fused zt ml mu pl a b).on j = (decide (j < pl.index) && (a.on j && b.on j))) := by
  unfold exitG
  split
  · rename_i g
    unfold exitR
    split
    · left; simp [Vtx.set, hj]
    · rename_i hn
      obtain ⟨r, h1, -, h3⟩ := crossing_mid hr hb he fused hz hM hp g.1 g.2 (cross_of_behind hB hA hn).2
      right
      unfold midR; rw [h1]
      exact ⟨h3, by simp [Vtx.set, hj]⟩
  · exact Or.inl ⟨rfl, rfl⟩

theorem between_boxFlag (hr : IsRounding rnd eps big) (hb : 1 ≤ big) (he : eps ≤ 1 / 1000) (fused : Bool) {zt : ℚ} {ml mu : V3 ℚ} (hz : 0 < zt) (hM : ∀ i, 3 * eps * (mu.get i - ml.get i) ≤ 5 * zt) {pl : Plane ℚ}
    (hp : rnd pl.position = pl.position) {f : V3 ℚ → Bool} (hf : BoxLabel f) {j : Nat} (hj : j < pl.index) :
    Between (behindR rnd zt pl) (entryG rnd fused zt ml mu pl) (exitG rnd fused zt ml mu pl) (fun v => v.on j && f v.pt) := by
  constructor
  · intro a b hA hB
    rcases entryG_on hr hb he fused hz hM hp hA hB (by omega : j ≠ pl.index) with ⟨h1, h2⟩ | ⟨h1, h2⟩
    · simp only [h1, h2, dd_self, Nat.add_zero]
    · simp only [h2, hj, decide_true, Bool.true_and]
      cases a.on j <;> cases b.on j
      · simp [dd]
      · simp [dd]
      · simp [dd]
      · simp only [Bool.true_and]
        exact dd_between (fun e => hf _ _ _ h1 e)
  · intro a b hA hB
    rcases exitG_on hr hb he fused hz hM hp hA hB (by omega : j ≠ pl.index) with ⟨h1, h2⟩ | ⟨h1, h2⟩
    · simp only [h1, h2, dd_self, Nat.zero_add]
    · simp only [h2, hj, decide_true, Bool.true_and]
      cases a.on j <;> cases b.on j
      · simp [dd]
      · simp [dd]
      · simp [dd]
      · simp only [Bool.true_and]
        exact dd_between (fun e => hf _ _ _ h1 e)

theorem invR_side (hr : IsRounding rnd eps big) (hb : 1 ≤ big) (he : eps ≤ 1 / 1000) (fused : Bool) {zt : ℚ} {ml mu : V3 ℚ} (hz : 0 < zt) (hM : ∀ i, 3 * eps * (mu.get i - ml.get i) ≤ 5 * zt) {lo up mn mx : V3 ℚ}
    (hlo : ∀ i, rnd (lo.get i) = lo.get i) (hup : ∀ i, rnd (up.get i) = up.get i) {k : Nat} (hk : k < 6) {l : List (Vtx ℚ)} (h : InvR rnd ml mu k l) :
    ∃ out, clipSideR rnd fused zt lo up mn mx k l = .ok out ∧ InvR rnd ml mu (k + 1) out := by
  have hp : rnd (plane lo up k).position = (plane lo up k).position := by
    unfold plane
    simp only
    split
    · exact hlo _
    · exact hup _
  have hlen : (cutR rnd fused zt ml mu (plane lo up k) l).length ≤ l.length + 1 := clip_length_le l (h.labels _ (behind_boxLabel hr he hz.le _))
  unfold clipSideR
  by_cases hact : if k % 2 = 0 then mx.get (k / 2) > lo.get (k / 2) else mn.get (k / 2) < up.get (k / 2)
  · rw [if_pos hact]
    have h9 : (cutR rnd fused zt ml mu (plane lo up k) l).length ≤ 9 := by rcases h.len with e | ⟨e, e'⟩ <;> omega
    refine ⟨_, clipPlaneR_eq hr hb he fused hz hM hp l h.good h9, ?_, good_cut hr hb he fused hz hM hp h.good, fun f hf => (clip_cyc (between_boxLabel hr hb he fused hz hM hp hf) l).trans (h.labels f hf), ?_, ?_, ?_⟩
    rotate_left
    · intro v hv j hj
      have hjk : j ≠ (plane lo up k).index := by show j ≠ k; omega
      have hjk' : ¬ j < (plane lo up k).index := by show ¬ j < k; omega
      rcases clip_mem hv with ⟨h1, _⟩ | ⟨a, ha, b, hb', ⟨hA, hB, rfl⟩ | ⟨hA, hB, rfl⟩⟩
      · exact h.fresh v h1 j (by omega)
      · rcases entryG_on hr hb he fused hz hM hp hA hB hjk with ⟨-, h2⟩ | ⟨-, h2⟩
        · rw [h2]; exact h.fresh b hb' j (by omega)
        · rw [h2]; simp [hjk']
      · rcases exitG_on hr hb he fused hz hM hp hA hB hjk with ⟨-, h2⟩ | ⟨-, h2⟩
        · rw [h2]; exact h.fresh a ha j (by omega)
        · rw [h2]; simp [hjk']
    · intro j hj f hf
      rcases Nat.lt_succ_iff_lt_or_eq.1 hj with hj | rfl
      · exact (clip_cyc (between_boxFlag hr hb he fused hz hM hp hf (show j < (plane lo up k).index from hj)) l).trans (h.arc j hj f hf)
      · refine (clip_flag l ?_).trans (h.labels _ (behind_boxLabel hr he hz.le (plane lo up j)))
        intro b hb' _
        simp [h.fresh b hb' j le_rfl]
    · intro j hj hne
      rcases Nat.lt_succ_iff_lt_or_eq.1 hj with hj | rfl
      · have hjk : j ≠ (plane lo up k).index := by show j ≠ k; omega
        have hl : l ≠ [] := by rintro rfl; exact hne rfl
        obtain ⟨u, hu, hfu⟩ := h.unflagged j hj hl
        have harc := h.arc j hj (fun p => !decide (classifyR rnd p (plane lo up k) (rnd (10 * zt)) = .behind)) (by
          intro a b m hm e
          have := behind_boxLabel hr he hz.le (plane lo up k) a b m hm (by simpa using e)
          simp only at this ⊢
          rw [this])
        rcases clip_unflagged (B := behindR rnd zt (plane lo up k)) (x := entryG rnd fused zt ml mu (plane lo up k)) (y := exitG rnd fused zt ml mu (plane lo up k)) (f := fun v => v.on j) (by
            intro a b hA hB h1
            rcases entryG_on hr hb he fused hz hM hp hA hB hjk with ⟨-, h2⟩ | ⟨-, h2⟩
            · rwa [h2] at h1
            · rw [h2] at h1
              simp only [Bool.and_eq_true] at h1
              exact h1.2.2) (by
            intro a b hA hB h1
            rcases exitG_on hr hb he fused hz hM hp hA hB hjk with ⟨-, h2⟩ | ⟨-, h2⟩
            · rwa [h2] at h1
            · rw [h2] at h1
              simp only [Bool.and_eq_true] at h1
              exact h1.2.1) l harc hu hfu with h0 | h1
        · exact absurd h0 hne
        · exact h1
      · have hb2 : ∃ b ∈ l, behindR rnd zt (plane lo up j) b = true := by
          by_contra hn
          push Not at hn
          exact hne (clip_none l (fun b hb => by simpa using hn b hb))
        obtain ⟨b, hb', hB⟩ := hb2
        exact ⟨b, clip_keeps hb' hB, h.fresh b hb' j le_rfl⟩
    rcases h.len with e | ⟨e, e'⟩
    · left
      have : l = [] := List.length_eq_zero_iff.1 e
      subst this; rfl
    · rcases clip_length_ge (B := behindR rnd zt (plane lo up k)) (x := entryG rnd fused zt ml mu (plane lo up k)) (y := exitG rnd fused zt ml mu (plane lo up k)) l e with h0 | h3
      · exact Or.inl h0
      · exact Or.inr ⟨h3, by omega⟩
  · rw [if_neg hact]
    refine ⟨l, rfl, ?_, h.good, h.labels, fun v hv j hj => h.fresh v hv j (by omega), ?_, ?_⟩
    · rcases h.len with e | ⟨e, e'⟩ <;> [exact Or.inl e; exact Or.inr ⟨e, by omega⟩]
    · intro j hj f hf
      rcases Nat.lt_succ_iff_lt_or_eq.1 hj with hj | rfl
      · exact h.arc j hj f hf
      · rw [cyc_false (fun v hv => by simp [h.fresh v hv j le_rfl])]; omega
    · intro j hj hne
      rcases Nat.lt_succ_iff_lt_or_eq.1 hj with hj | rfl
      · exact h.unflagged j hj hne
      · obtain ⟨v, hv⟩ := List.exists_mem_of_ne_nil l hne
        exact ⟨v, hv, h.fresh v hv j le_rfl⟩

/-- Rounded coordinates. -/
def Exact (rnd : ℚ → ℚ) (p : V3 ℚ) : Prop := rnd p.x = p.x ∧ rnd p.y = p.y ∧ rnd p.z = p.z

theorem Exact.get {p : V3 ℚ} (h : Exact rnd p) (i : Nat) : rnd (p.get i) = p.get i := by
  match i with
  | 0 => exact h.1
  | 1 => exact h.2.1
  | _ + 2 => exact h.2.2

/-- The coordinates of two points differ by at most `L`. -/
def Extent (L : ℚ) (a b : V3 ℚ) : Prop := |a.x - b.x| ≤ L ∧ |a.y - b.y| ≤ L ∧ |a.z - b.z| ≤ L

theorem Extent.get {L : ℚ} {a b : V3 ℚ} (h : Extent L a b) (i : Nat) : |a.get i - b.get i| ≤ L := by
  match i with
  | 0 => exact h.1
  | 1 => exact h.2.1
  | _ + 2 => exact h.2.2

theorem triMin_get (p1 p2 p3 : V3 ℚ) (i : Nat) : (triMin p1 p2 p3).get i = min (min (p1.get i) (p2.get i)) (p3.get i) := by
  match i with
  | 0 => rfl
  | 1 => rfl
  | _ + 2 => rfl

theorem triMax_get (p1 p2 p3 : V3 ℚ) (i : Nat) : (triMax p1 p2 p3).get i = max (max (p1.get i) (p2.get i)) (p3.get i) := by
  match i with
  | 0 => rfl
  | 1 => rfl
  | _ + 2 => rfl

theorem corner_good {p1 p2 p3 : V3 ℚ} (e1 : Exact rnd p1) (e2 : Exact rnd p2) (e3 : Exact rnd p3) :
    Good rnd (triMin p1 p2 p3) (triMax p1 p2 p3) p1 ∧ Good rnd (triMin p1 p2 p3) (triMax p1 p2 p3) p2 ∧ Good rnd (triMin p1 p2 p3) (triMax p1 p2 p3) p3 := by
  refine ⟨⟨e1.get, ?_, ?_⟩, ⟨e2.get, ?_, ?_⟩, ⟨e3.get, ?_, ?_⟩⟩ <;> intro i <;> first | rw [triMin_get] | rw [triMax_get]
  all_goals simp

theorem extent_box (hr : IsRounding rnd eps big) {L zt : ℚ} {p1 p2 p3 : V3 ℚ} (hL : 3 * eps * L ≤ 5 * zt) (h1 : Extent L p1 p2) (h2 : Extent L p2 p3) (h3 : Extent L p3 p1) :
    ∀ i, 3 * eps * ((triMax p1 p2 p3).get i - (triMin p1 p2 p3).get i) ≤ 5 * zt := by
  intro i
  have e0 := eps_nonneg hr
  have a1 := abs_le.1 (h1.get i)
  have a2 := abs_le.1 (h2.get i)
  have a3 := abs_le.1 (h3.get i)
  have hd : (triMax p1 p2 p3).get i - (triMin p1 p2 p3).get i ≤ L := by
    rw [triMin_get, triMax_get]
    rcases max_choice (max (p1.get i) (p2.get i)) (p3.get i) with h | h <;> rcases max_choice (p1.get i) (p2.get i) with h' | h' <;>
      rcases min_choice (min (p1.get i) (p2.get i)) (p3.get i) with k | k <;> rcases min_choice (p1.get i) (p2.get i) with k' | k' <;> simp only [h, k] <;> (try rw [h']) <;> (try rw [k']) <;> linarith
  have := mul_le_mul_of_nonneg_left hd (by linarith : 0 ≤ 3 * eps)
  linarith

theorem capacity_aux (hr : IsRounding rnd eps big) (hb : 1 ≤ big) (he : eps ≤ 1 / 1000) (fused : Bool) {zt : ℚ} {ml mu : V3 ℚ} (hz : 0 < zt) (hM : ∀ i, 3 * eps * (mu.get i - ml.get i) ≤ 5 * zt) {p1 p2 p3 lo up mn mx : V3 ℚ}
    (h1 : Good rnd ml mu p1) (h2 : Good rnd ml mu p2) (h3 : Good rnd ml mu p3) (hlo : Exact rnd lo) (hup : Exact rnd up) (n : Nat) (hn : n ≤ 6) :
    ∃ out, (List.range n).foldlM (fun poly k => clipSideR rnd fused zt lo up mn mx k poly) [bare p1, bare p2, bare p3] = .ok out ∧ InvR rnd ml mu n out := by
  induction n with
  | zero =>
    refine ⟨_, rfl, Or.inr ⟨by simp, by simp⟩, ?_, fun _ _ => cyc_three _ _ _ _, fun v hv j _ => ?_, fun j hj => by omega, fun j hj => by omega⟩
    rotate_left
    · simp only [List.mem_cons, List.not_mem_nil, or_false] at hv
      rcases hv with rfl | rfl | rfl <;> rfl
    intro v hv
    simp only [List.mem_cons, List.not_mem_nil, or_false] at hv
    rcases hv with rfl | rfl | rfl
    · exact h1
    · exact h2
    · exact h3
  | succ n ih =>
    obtain ⟨out, h, ho⟩ := ih (by omega)
    rw [List.range_succ, List.foldlM_append, h]
    obtain ⟨o, h', ho'⟩ := invR_side (mn := mn) (mx := mx) hr hb he fused hz hM hlo.get hup.get (by omega : n < 6) ho
    refine ⟨o, ?_, ho'⟩
    show (clipSideR rnd fused zt lo up mn mx n out).bind (fun x => Except.ok x) = _
    rw [h']; rfl

/-- **C115** (no error for small triangles).  If the corners of the triangle and of the box are numbers of the machine, and the corners of the triangle differ by at most `5/3 zt/eps` in each coordinate, clipping does not
fail, and the polygon has no vertices or three to nine.  The full property has no bound on the triangle and is false, see `C115_capacity_false_of_code`. -/
theorem C115_capacity_partial (hr : IsRounding rnd eps big) (hb : 1 ≤ big) (he : eps ≤ 1 / 1000) (fused : Bool) {zt L : ℚ} (hz : 0 < zt) (hL : 3 * eps * L ≤ 5 * zt) {p1 p2 p3 lo up : V3 ℚ}
    (h1 : Extent L p1 p2) (h2 : Extent L p2 p3) (h3 : Extent L p3 p1) (e1 : Exact rnd p1) (e2 : Exact rnd p2) (e3 : Exact rnd p3) (hlo : Exact rnd lo) (hup : Exact rnd up) :
    ∃ r, clipTriangleR rnd fused zt p1 p2 p3 lo up = .ok r ∧ ∀ p, r = some p → p.length = 0 ∨ (3 ≤ p.length ∧ p.length ≤ 9) := by
  unfold clipTriangleR
  split
  · exact ⟨none, rfl, by simp⟩
  · obtain ⟨out, h, ho⟩ := capacity_aux (mn := triMin p1 p2 p3) (mx := triMax p1 p2 p3) hr hb he fused hz (extent_box hr hL h1 h2 h3) (corner_good e1 e2 e3).1 (corner_good e1 e2 e3).2.1 (corner_good e1 e2 e3).2.2 hlo hup 6 le_rfl
    rw [h]
    refine ⟨some out, rfl, fun p hp => ?_⟩
    cases hp
    exact ho.len

/-- **C115** (bounds for small triangles).  Under the same hypotheses the coordinates of the vertices of the result are numbers of the machine and lie, without any tolerance, between the smallest and the
largest of the corners. -/
theorem C115_in_bounds_partial (hr : IsRounding rnd eps big) (hb : 1 ≤ big) (he : eps ≤ 1 / 1000) (fused : Bool) {zt L : ℚ} (hz : 0 < zt) (hL : 3 * eps * L ≤ 5 * zt) {p1 p2 p3 lo up : V3 ℚ}
    (h1 : Extent L p1 p2) (h2 : Extent L p2 p3) (h3 : Extent L p3 p1) (e1 : Exact rnd p1) (e2 : Exact rnd p2) (e3 : Exact rnd p3) (hlo : Exact rnd lo) (hup : Exact rnd up) {p : List (Vtx ℚ)}
    (h : clipTriangleR rnd fused zt p1 p2 p3 lo up = .ok (some p)) :
    ∀ v ∈ p, Exact rnd v.pt ∧ (min (min p1.x p2.x) p3.x ≤ v.pt.x ∧ v.pt.x ≤ max (max p1.x p2.x) p3.x) ∧ (min (min p1.y p2.y) p3.y ≤ v.pt.y ∧ v.pt.y ≤ max (max p1.y p2.y) p3.y) ∧
      (min (min p1.z p2.z) p3.z ≤ v.pt.z ∧ v.pt.z ≤ max (max p1.z p2.z) p3.z) := by
  unfold clipTriangleR at h
  split at h
  · cases h
  · obtain ⟨out, ho, hi⟩ := capacity_aux (mn := triMin p1 p2 p3) (mx := triMax p1 p2 p3) hr hb he fused hz (extent_box hr hL h1 h2 h3) (corner_good e1 e2 e3).1 (corner_good e1 e2 e3).2.1
      (corner_good e1 e2 e3).2.2 hlo hup 6 le_rfl
    rw [ho] at h
    cases h
    intro v hv
    have g := hi.good v hv
    exact ⟨⟨g.exact 0, g.exact 1, g.exact 2⟩, ⟨g.lower 0, g.upper 0⟩, ⟨g.lower 1, g.upper 1⟩, ⟨g.lower 2, g.upper 2⟩⟩

/-- **C115** (triangulation for small triangles).  Under the same hypotheses, adding the result to a mesh does not fail: "All vertices are set on plane" cannot happen.  (The error depends only on the
number of vertices and on the flags; the rounding of the centroid, which is not modelled, does not matter for it.)  Missing: larger triangles. -/
theorem C115_triangulation_partial (hr : IsRounding rnd eps big) (hb : 1 ≤ big) (he : eps ≤ 1 / 1000) (fused : Bool) {zt L : ℚ} (hz : 0 < zt) (hL : 3 * eps * L ≤ 5 * zt) {p1 p2 p3 lo up : V3 ℚ}
    (h1 : Extent L p1 p2) (h2 : Extent L p2 p3) (h3 : Extent L p3 p1) (e1 : Exact rnd p1) (e2 : Exact rnd p2) (e3 : Exact rnd p3) (hlo : Exact rnd lo) (hup : Exact rnd up) {p : List (Vtx ℚ)}
    (h : clipTriangleR rnd fused zt p1 p2 p3 lo up = .ok (some p)) (n : V3 ℚ) (m : ClippedMesh ℚ) : ∃ m', addToMesh p n m = some m' := by
  cases hm : addToMesh p n m with
  | some m' => exact ⟨m', rfl⟩
  | none =>
    exfalso
    obtain ⟨hl, k, hk, hall⟩ := (addToMesh_none p n m).1 hm
    unfold clipTriangleR at h
    split at h
    · cases h
    · obtain ⟨out, ho, hi⟩ := capacity_aux (mn := triMin p1 p2 p3) (mx := triMax p1 p2 p3) hr hb he fused hz (extent_box hr hL h1 h2 h3) (corner_good e1 e2 e3).1 (corner_good e1 e2 e3).2.1 (corner_good e1 e2 e3).2.2 hlo hup 6 le_rfl
      rw [ho] at h
      cases h
      obtain ⟨v, hv, hv'⟩ := hi.unflagged k hk (by intro e; rw [e] at hl; simp at hl)
      rw [hall v hv] at hv'
      simp at hv'

theorem deep_behindR (hr : IsRounding rnd eps big) (he : eps ≤ 1 / 1000) {zt : ℚ} (hz : 0 < zt) {lo up p : V3 ℚ} (h : DeepInBox lo up (11 * zt) p) {k : Nat} (hk : k < 6) :
    classifyR rnd p (plane lo up k) (rnd (10 * zt)) = .behind := by
  obtain ⟨q0, q1⟩ := tol_bounds hr he hz.le
  have hd : dist (plane lo up k) p ≤ -(11 * zt) := by
    obtain ⟨⟨a1, a2⟩, ⟨a3, a4⟩, ⟨a5, a6⟩⟩ := h
    have : k = 0 ∨ k = 1 ∨ k = 2 ∨ k = 3 ∨ k = 4 ∨ k = 5 := by omega
    rcases this with rfl | rfl | rfl | rfl | rfl | rfl <;> simp [Clip.dist, plane, V3.get] <;> linarith
  have e := (abs_le.1 (hr.error (dist (plane lo up k) p))).2
  rw [abs_of_neg (by linarith : dist (plane lo up k) p < 0)] at e
  have := mul_le_mul_of_nonneg_right he (by linarith : 0 ≤ -dist (plane lo up k) p)
  rw [classifyR_eq, if_neg (by linarith), if_pos (by linarith)]

/-- **C115** (inside).  A triangle whose corners lie in the box, more than eleven zero tolerances away from its faces, is returned unchanged and without flags. -/
theorem C115_inside_unchanged (hr : IsRounding rnd eps big) (he : eps ≤ 1 / 1000) (fused : Bool) {zt : ℚ} (hz : 0 < zt) {p1 p2 p3 lo up : V3 ℚ} (h1 : DeepInBox lo up (11 * zt) p1)
    (h2 : DeepInBox lo up (11 * zt) p2) (h3 : DeepInBox lo up (11 * zt) p3) : clipTriangleR rnd fused zt p1 p2 p3 lo up = .ok (some [bare p1, bare p2, bare p3]) := by
  have side : ∀ k < 6, clipSideR rnd fused zt lo up (triMin p1 p2 p3) (triMax p1 p2 p3) k [bare p1, bare p2, bare p3] = .ok [bare p1, bare p2, bare p3] := by
    intro k hk
    have b1 : classifyR rnd (bare p1).pt (plane lo up k) (rnd (10 * zt)) = .behind := deep_behindR hr he hz h1 hk
    have b2 : classifyR rnd (bare p2).pt (plane lo up k) (rnd (10 * zt)) = .behind := deep_behindR hr he hz h2 hk
    have b3 : classifyR rnd (bare p3).pt (plane lo up k) (rnd (10 * zt)) = .behind := deep_behindR hr he hz h3 hk
    have hc : clipPlaneR rnd fused zt (plane lo up k) [bare p1, bare p2, bare p3] = .ok [bare p1, bare p2, bare p3] := by
      unfold clipPlaneR
      simp only [List.getLast?_cons_cons, List.getLast?_singleton]
      simp only [clipLoopR, clipStepR, b1, b2, b3]
      rfl
    unfold clipSideR
    rw [hc, ite_self]
  have al : alignedR rnd zt p1 p2 p3 lo up = false := by
    unfold alignedR
    rw [List.any_eq_false]
    intro k hk
    have := deep_behindR hr he hz h1 (List.mem_range.1 hk)
    simp [this]
  unfold clipTriangleR
  rw [al]
  have s0 := side 0 (by omega)
  have s1 := side 1 (by omega)
  have s2 := side 2 (by omega)
  have s3 := side 3 (by omega)
  have s4 := side 4 (by omega)
  have s5 := side 5 (by omega)
  have hl : List.range 6 = [0, 1, 2, 3, 4, 5] := rfl
  have ok : ∀ (c : List (Vtx ℚ)) (g : List (Vtx ℚ) → Except ClipErr (List (Vtx ℚ))), (Except.ok c >>= g) = g c := fun _ _ => rfl
  simp only [hl, List.foldlM_cons, List.foldlM_nil, s0, s1, s2, s3, s4, s5, ok]
  rfl

end

/-- **C115** (no error for small triangles, double precision).  Triangles whose corners differ by at most 150 in each coordinate and any box of doubles: with the tolerance of the code, clipping does not fail, and the polygon has no
vertices or three to nine.  For a triangle of size 1032 that is false, `C115_capacity_false_of_code`. -/
theorem C115_capacity_binary64_partial (fused : Bool) {p1 p2 p3 lo up : V3 ℚ} (h1 : Extent 150 p1 p2) (h2 : Extent 150 p2 p3) (h3 : Extent 150 p3 p1) (e1 : Exact binary64 p1) (e2 : Exact binary64 p2)
    (e3 : Exact binary64 p3) (hlo : Exact binary64 lo) (hup : Exact binary64 up) :
    ∃ r, clipTriangleR binary64 fused zeroTol p1 p2 p3 lo up = .ok r ∧ ∀ p, r = some p → p.length = 0 ∨ (3 ≤ p.length ∧ p.length ≤ 9) := by
  have hz : 9999 / 10 ^ 18 ≤ zeroTol := by unfold zeroTol; decide +kernel
  exact C115_capacity_partial binary64_isRounding (by norm_num) (by norm_num) fused (lt_of_lt_of_le (by norm_num) hz) (le_trans (by norm_num) (mul_le_mul_of_nonneg_left hz (by norm_num : (0 : ℚ) ≤ 5)))
    h1 h2 h3 e1 e2 e3 hlo hup

/-- The hypotheses of `C115_inside_unchanged` are met. -/
example : DeepInBox ⟨0, 0, 0⟩ ⟨1, 1, 1⟩ (11 * zeroTol) ⟨1 / 2, 1 / 3, 1 / 4⟩ := by
  have := zeroTol_bounds.2
  refine ⟨⟨?_, ?_⟩, ⟨?_, ?_⟩, ⟨?_, ?_⟩⟩ <;> norm_num <;> linarith

/-- The hypotheses are met by a triangle that faces of the box cut. -/
example : Extent 150 ⟨2, -1 / 2, 1⟩ ⟨-1 / 2, 2, 1⟩ ∧ Extent 150 ⟨-1 / 2, 2, 1⟩ ⟨1 / 4, 1 / 4, -64⟩ ∧ Extent 150 ⟨1 / 4, 1 / 4, -64⟩ ⟨2, -1 / 2, 1⟩ ∧ Exact binary64 ⟨2, -1 / 2, 1⟩ ∧ Exact binary64 ⟨-1 / 2, 2, 1⟩ ∧ Exact binary64 ⟨1 / 4, 1 / 4, -64⟩ ∧
    3 ≤ count (clipTriangleR binary64 true zeroTol ⟨2, -1 / 2, 1⟩ ⟨-1 / 2, 2, 1⟩ ⟨1 / 4, 1 / 4, -64⟩ ⟨0, 0, 0⟩ ⟨1, 1, 1 / 2⟩) := by
  refine ⟨by norm_num [Extent, abs_le], by norm_num [Extent, abs_le], by norm_num [Extent, abs_le], ?_, ?_, ?_, by decide +kernel⟩ <;> (unfold Exact; decide +kernel)

end QuESo.Props
