import Verif.Proofs.OctreeRefine

namespace QuESo.Mapping
open Spec
variable {K : Type _} [Field K] [LinearOrder K] [IsStrictOrderedRing K]

theorem scale_pos {a b : Box K} (ha : ProperBox a) (hb : ProperBox b) :
    computeScale a b = ⟨(b.upper.x - b.lower.x) / (a.upper.x - a.lower.x),
      (b.upper.y - b.lower.y) / (a.upper.y - a.lower.y), (b.upper.z - b.lower.z) / (a.upper.z - a.lower.z)⟩ := by
  obtain ⟨a1, a2, a3⟩ := ha
  obtain ⟨b1, b2, b3⟩ := hb
  unfold computeScale
  rw [abs_of_pos (sub_pos.2 a1), abs_of_pos (sub_pos.2 a2), abs_of_pos (sub_pos.2 a3),
    abs_of_pos (sub_pos.2 b1), abs_of_pos (sub_pos.2 b2), abs_of_pos (sub_pos.2 b3)]

theorem toParametric_toGlobal {b : Bounds K} (hg : ProperBox b.global) (hp : ProperBox b.parametric)
    (p : V3 K) : toParametric (toGlobal p b) b = p := by
  unfold toParametric toGlobal
  rw [scale_pos hg hp, scale_pos hp hg]
  have g1 := (sub_pos.2 hg.1).ne'; have g2 := (sub_pos.2 hg.2.1).ne'; have g3 := (sub_pos.2 hg.2.2).ne'
  have p1 := (sub_pos.2 hp.1).ne'; have p2 := (sub_pos.2 hp.2.1).ne'; have p3 := (sub_pos.2 hp.2.2).ne'
  apply V3.ext <;> simp only <;> field_simp <;> ring

theorem toGlobal_toParametric {b : Bounds K} (hg : ProperBox b.global) (hp : ProperBox b.parametric)
    (p : V3 K) : toGlobal (toParametric p b) b = p :=
  toParametric_toGlobal (b := ⟨b.parametric, b.global⟩) hp hg p

theorem toGlobal_inBox {b : Bounds K} (hg : ProperBox b.global) (hp : ProperBox b.parametric)
    (p : V3 K) : InBox b.global (toGlobal p b) ↔ InBox b.parametric p := by
  unfold InBox toGlobal
  rw [scale_pos hp hg]
  have key : ∀ {t lo up lo' up' : K}, lo < up → lo' < up' →
      ((lo' ≤ (t - lo) * ((up' - lo') / (up - lo)) + lo' ∧ (t - lo) * ((up' - lo') / (up - lo)) + lo' ≤ up') ↔
        (lo ≤ t ∧ t ≤ up)) := by
    intro t lo up lo' up' h h'
    have hs : 0 < (up' - lo') / (up - lo) := div_pos (sub_pos.2 h') (sub_pos.2 h)
    have e : (up - lo) * ((up' - lo') / (up - lo)) = up' - lo' := by
      have := (sub_pos.2 h).ne'; field_simp
    constructor
    · rintro ⟨h1, h2⟩
      constructor
      · by_contra hc
        have := mul_neg_of_neg_of_pos (sub_neg.2 (lt_of_not_ge hc)) hs
        linarith
      · by_contra hc
        have : (up - lo) * ((up' - lo') / (up - lo)) < (t - lo) * ((up' - lo') / (up - lo)) :=
          mul_lt_mul_of_pos_right (by linarith [lt_of_not_ge hc]) hs
        linarith
    · rintro ⟨h1, h2⟩
      constructor
      · have := mul_nonneg (sub_nonneg.2 h1) hs.le; linarith
      · have : (t - lo) * ((up' - lo') / (up - lo)) ≤ (up - lo) * ((up' - lo') / (up - lo)) :=
          mul_le_mul_of_nonneg_right (by linarith) hs.le
        linarith
  simp only
  rw [key hp.1 hg.1, key hp.2.1 hg.2.1, key hp.2.2 hg.2.2]

theorem detJ_pos {b : Bounds K} (hg : ProperBox b.global) (hp : ProperBox b.parametric) : 0 < detJ b := by
  unfold detJ
  rw [scale_pos hp hg]
  simp only
  have g1 := sub_pos.2 hg.1; have g2 := sub_pos.2 hg.2.1; have g3 := sub_pos.2 hg.2.2
  have p1 := sub_pos.2 hp.1; have p2 := sub_pos.2 hp.2.1; have p3 := sub_pos.2 hp.2.2
  positivity

theorem detJ_volume {b : Bounds K} (hg : ProperBox b.global) (hp : ProperBox b.parametric) :
    detJ b * boxVolume b.parametric = boxVolume b.global := by
  unfold detJ boxVolume
  rw [scale_pos hp hg]
  simp only
  have p1 := (sub_pos.2 hp.1).ne'; have p2 := (sub_pos.2 hp.2.1).ne'; have p3 := (sub_pos.2 hp.2.2).ne'
  field_simp

theorem area_cross {b : Bounds K} (hg : ProperBox b.global) (hp : ProperBox b.parametric) (p q r : V3 K) :
    V3.cross (toGlobal q b - toGlobal p b) (toGlobal r b - toGlobal p b) =
      areaVector (V3.cross (q - p) (r - p)) (computeScale b.parametric b.global) := by
  apply V3.ext <;> simp [V3.cross, toGlobal, areaVector] <;> ring

theorem area_inverse {a b : Box K} (ha : ProperBox a) (hb : ProperBox b) (n : V3 K) (c : K) :
    areaVector (V3.scale c (areaVector n (computeScale a b))) (computeScale b a) = V3.scale c n := by
  rw [scale_pos ha hb, scale_pos hb ha]
  have a1 := (sub_pos.2 ha.1).ne'; have a2 := (sub_pos.2 ha.2.1).ne'; have a3 := (sub_pos.2 ha.2.2).ne'
  have b1 := (sub_pos.2 hb.1).ne'; have b2 := (sub_pos.2 hb.2.1).ne'; have b3 := (sub_pos.2 hb.2.2).ne'
  apply V3.ext <;> simp only [areaVector, V3.scale] <;> field_simp

end QuESo.Mapping

namespace QuESo.Octree
open Spec Mapping
variable {K : Type _} [Field K] [LinearOrder K] [IsStrictOrderedRing K]

theorem oct_proper {b : Box K} (h : ProperBox b) (i j k : Bool) : ProperBox (oct b i j k) := by
  obtain ⟨hx, hy, hz⟩ := h
  refine ⟨?_, ?_, ?_⟩ <;> cases i <;> cases j <;> cases k <;> simp [oct] <;> linarith

theorem childBox_mem (b : Box K) {k : Nat} (h : k < 8) : childBox b k ∈ kids b := by
  simp only [kids, List.mem_cons]
  have : k = 0 ∨ k = 1 ∨ k = 2 ∨ k = 3 ∨ k = 4 ∨ k = 5 ∨ k = 6 ∨ k = 7 := by omega
  rcases this with rfl | rfl | rfl | rfl | rfl | rfl | rfl | rfl <;> simp

/-- Which halves child `k` takes. -/
def bits : Nat → Bool × Bool × Bool
  | 0 => (false, false, false)
  | 1 => (true, false, false)
  | 2 => (true, true, false)
  | 3 => (false, true, false)
  | 4 => (false, false, true)
  | 5 => (true, false, true)
  | 6 => (true, true, true)
  | _ => (false, true, true)

theorem childBox_bits (b : Box K) {k : Nat} (h : k < 8) :
    childBox b k = oct b (bits k).1 (bits k).2.1 (bits k).2.2 := by
  obtain ⟨h0, h1, h2, h3, h4, h5, h6, h7⟩ := childBox_oct b
  have : k = 0 ∨ k = 1 ∨ k = 2 ∨ k = 3 ∨ k = 4 ∨ k = 5 ∨ k = 6 ∨ k = 7 := by omega
  rcases this with rfl | rfl | rfl | rfl | rfl | rfl | rfl | rfl <;> simpa [bits]

theorem half_map (lo up lo' up' t : K) (h : lo < up) (h' : lo' ≤ up') (i : Bool) :
    (t - (if i = true then (lo + up) / 2 else lo)) *
      (|(if i = true then up' else (lo' + up') / 2) - (if i = true then (lo' + up') / 2 else lo')| /
       |(if i = true then up else (lo + up) / 2) - (if i = true then (lo + up) / 2 else lo)|) +
      (if i = true then (lo' + up') / 2 else lo')
    = (t - lo) * (|up' - lo'| / |up - lo|) + lo' := by
  have h1 : 0 < up - lo := sub_pos.2 h
  have h2 : 0 ≤ up' - lo' := sub_nonneg.2 h'
  cases i
  · simp only [Bool.false_eq_true, if_false]
    rw [show (lo' + up') / 2 - lo' = (up' - lo') / 2 by ring, show (lo + up) / 2 - lo = (up - lo) / 2 by ring,
      abs_of_nonneg h2, abs_of_pos h1, abs_of_nonneg (by linarith), abs_of_pos (by linarith)]
    field_simp
  · simp only [if_true]
    rw [show up' - (lo' + up') / 2 = (up' - lo') / 2 by ring, show up - (lo + up) / 2 = (up - lo) / 2 by ring,
      abs_of_nonneg h2, abs_of_pos h1, abs_of_nonneg (by linarith), abs_of_pos (by linarith)]
    field_simp
    ring

/-- The map of a child is the map of its parent. -/
theorem toGlobal_child {x u : Box K} (hx : OrderedBox x) (hu : ProperBox u) {k : Nat} (h : k < 8) (p : V3 K) :
    toGlobal p ⟨childBox x k, childBox u k⟩ = toGlobal p ⟨x, u⟩ := by
  rw [childBox_bits x h, childBox_bits u h]
  apply V3.ext
  · exact half_map _ _ _ _ _ hu.1 hx.1 _
  · exact half_map _ _ _ _ _ hu.2.1 hx.2.1 _
  · exact half_map _ _ _ _ _ hu.2.2 hx.2.2 _

theorem size_child (b : Box K) {k : Nat} (h : k < 8) :
    (childBox b k).upper.x - (childBox b k).lower.x = (b.upper.x - b.lower.x) / 2 ∧
    (childBox b k).upper.y - (childBox b k).lower.y = (b.upper.y - b.lower.y) / 2 ∧
    (childBox b k).upper.z - (childBox b k).lower.z = (b.upper.z - b.lower.z) / 2 := by
  rw [childBox_bits b h]
  generalize (bits k).1 = i
  generalize (bits k).2.1 = j
  generalize (bits k).2.2 = l
  refine ⟨?_, ?_, ?_⟩ <;> cases i <;> cases j <;> cases l <;> simp [oct] <;> ring

/-- What every leaf of a good tree satisfies. -/
theorem leaf_facts {state : Box K → IState} {n : Node K} (hg : Good state n) {xyz uvw : Box K} {st : IState}
    (hh : Head xyz uvw st 0 n) (hx : OrderedBox xyz) (hu : ProperBox uvw) :
    ∀ e ∈ n.leaves, OrderedBox e.xyz ∧ ProperBox e.uvw ∧ ScaledDown xyz e.xyz e.level ∧
      ScaledDown uvw e.uvw e.level ∧ (∀ p, toGlobal p ⟨e.xyz, e.uvw⟩ = toGlobal p ⟨xyz, uvw⟩) ∧
      SubBox e.uvw uvw ∧ SubBox e.xyz xyz := by
  have hu' : OrderedBox uvw := ⟨hu.1.le, hu.2.1.le, hu.2.2.le⟩
  refine leaves_induct (Q := fun x u _ l => OrderedBox x ∧ ProperBox u ∧ ScaledDown xyz x l ∧ ScaledDown uvw u l ∧
    (∀ p, toGlobal p ⟨x, u⟩ = toGlobal p ⟨xyz, uvw⟩) ∧ SubBox u uvw ∧ SubBox x xyz) ?_ hg hh
    ⟨hx, hu, by simp [ScaledDown], by simp [ScaledDown], fun _ => rfl, ?_, ?_⟩
  · intro x u s l k hk ⟨ox, pu, sx, su, hm, hsub, hsubx⟩ _
    have e1 : OrderedBox u := ⟨pu.1.le, pu.2.1.le, pu.2.2.le⟩
    have bx := (tiles_kids ox).within _ (childBox_mem x hk)
    have bu := (tiles_kids e1).within _ (childBox_mem u hk)
    have zx := size_child x hk
    have zu := size_child u hk
    refine ⟨bx.1, ?_, ?_, ?_, ?_, SubBox.trans bu hsub, SubBox.trans bx hsubx⟩
    · rw [childBox_bits u hk]; exact oct_proper pu _ _ _
    · refine ⟨?_, ?_, ?_⟩
      · rw [zx.1, ← sx.1]; ring
      · rw [zx.2.1, ← sx.2.1]; ring
      · rw [zx.2.2, ← sx.2.2]; ring
    · refine ⟨?_, ?_, ?_⟩
      · rw [zu.1, ← su.1]; ring
      · rw [zu.2.1, ← su.2.1]; ring
      · rw [zu.2.2, ← su.2.2]; ring
    · intro p
      rw [toGlobal_child ox pu hk, hm]
  · exact ⟨hu', ⟨le_refl _, le_refl _⟩, ⟨le_refl _, le_refl _⟩, le_refl _, le_refl _⟩
  · exact ⟨hx, ⟨le_refl _, le_refl _⟩, ⟨le_refl _, le_refl _⟩, le_refl _, le_refl _⟩

/-! ### Sequences of refinements -/

theorem refines_eq {state : Box K → IState} {t t' : Tree K} {calls : List (Nat × Nat)}
    (h : refines state t calls = some t') :
    t'.root = calls.foldl (fun n c => refineNode state c.1 c.2 n) t.root ∧ ∀ c ∈ calls, c.1 ≤ c.2 := by
  induction calls generalizing t with
  | nil => simp [refines] at h; subst h; exact ⟨rfl, by simp⟩
  | cons c cs ih =>
    simp only [refines, List.foldlM_cons, Option.bind_eq_bind] at h
    obtain ⟨t1, h1, h2⟩ := Option.bind_eq_some_iff.1 h
    unfold refine at h1
    split at h1
    · cases h1
    · simp only [Option.some.injEq] at h1
      subst h1
      obtain ⟨e, hc⟩ := ih h2
      refine ⟨e, ?_⟩
      intro d hd
      rcases List.mem_cons.1 hd with rfl | hd
      · omega
      · exact hc d hd

theorem refines_some {state : Box K → IState} {t : Tree K} {calls : List (Nat × Nat)}
    (h : ∀ c ∈ calls, c.1 ≤ c.2) : ∃ t', refines state t calls = some t' := by
  induction calls generalizing t with
  | nil => exact ⟨t, rfl⟩
  | cons c cs ih =>
    have hc := h c (by simp)
    simp only [refines, List.foldlM_cons, Option.bind_eq_bind]
    rw [show refine state t c.1 c.2 = some ⟨refineNode state c.1 c.2 t.root, c.1, c.2⟩ by
      unfold refine; rw [if_neg (by omega)]]
    exact ih (fun d hd => h d (by simp [hd]))

theorem refines_good {state : Box K → IState} {xyz uvw : Box K} {t : Tree K} {calls : List (Nat × Nat)}
    (h : refines state (new xyz uvw) calls = some t) : Good state t.root ∧ Head xyz uvw .trimmed 0 t.root := by
  rw [(refines_eq h).1]
  have : ∀ n : Node K, Good state n ∧ Head xyz uvw .trimmed 0 n →
      Good state (calls.foldl (fun n c => refineNode state c.1 c.2 n) n) ∧
      Head xyz uvw .trimmed 0 (calls.foldl (fun n c => refineNode state c.1 c.2 n) n) := by
    intro n hn
    clear h
    induction calls generalizing n with
    | nil => exact hn
    | cons c cs ih =>
      exact ih _ ⟨refineNode_good _ _ hn.1, refineNode_head hn.2⟩
  exact this _ ⟨good_leaf .., ⟨rfl, rfl, rfl, rfl⟩⟩

/-- Earlier calls with smaller levels do not matter. -/
theorem foldl_absorb (state : Box K → IState) (calls : List (Nat × Nat)) (m M : Nat)
    (h : ∀ c ∈ calls, c.1 ≤ m ∧ c.2 ≤ M) (n : Node K) :
    refineNode state m M (calls.foldl (fun n c => refineNode state c.1 c.2 n) n) = refineNode state m M n := by
  induction calls generalizing n with
  | nil => rfl
  | cons c cs ih =>
    rw [List.foldl_cons, ih (fun d hd => h d (by simp [hd]))]
    exact absorb state (h c (by simp)).1 (h c (by simp)).2 n

end QuESo.Octree
