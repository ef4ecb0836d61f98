import Verif.Props.RoundingOctree
import Verif.Props.RoundingRule
import Verif.Spec.RoundingOctree

/-!
# C114: accuracy of the leaves of the octree in floating-point arithmetic
-/
namespace QuESo.Props
open QuESo.Spec QuESo.Round QuESo.Octree

section
variable {rnd : ℚ → ℚ} {eps : ℚ} {big : Nat}

/-- One direction of the eight boxes: machine (left) and exact (right). -/
structure Step1 (rnd : ℚ → ℚ) (r lo up lo' up' : ℚ) : Prop where
  f0 : |lo - lo'| ≤ r
  f1 : |up - up'| ≤ r
  f2 : |rnd lo - lo'| ≤ r
  f3 : |rnd up - up'| ≤ r
  f4 : |rnd (lo + rnd (1 / 2 * rnd (up - lo))) - (lo' + 1 / 2 * (up' - lo'))| ≤ r
  f5 : |rnd (rnd lo + rnd (1 / 2 * rnd (up - lo))) - (lo' + 1 / 2 * (up' - lo'))| ≤ r
  f6 : |rnd (rnd (lo + rnd (1 / 2 * rnd (up - lo))) + rnd (1 / 2 * rnd (up - lo))) - (lo' + 1 / 2 * (up' - lo') + 1 / 2 * (up' - lo'))| ≤ r
  f7 : |rnd (up - rnd (1 / 2 * rnd (up - lo))) - (up' - 1 / 2 * (up' - lo'))| ≤ r
  f8 : |rnd (rnd up - rnd (1 / 2 * rnd (up - lo))) - (up' - 1 / 2 * (up' - lo'))| ≤ r
  f9 : |rnd (rnd (up - rnd (1 / 2 * rnd (up - lo))) - rnd (1 / 2 * rnd (up - lo))) - (up' - 1 / 2 * (up' - lo') - 1 / 2 * (up' - lo'))| ≤ r

/-- Rounding of a number near `t`. -/
theorem rnd_near (hr : IsRounding rnd eps big) (he : eps ≤ 1 / 1000) {v t B : ℚ} {a : ℚ} (ht : |t| ≤ B) (ha : 0 ≤ a) (ha' : a ≤ 6) (h : |v - t| ≤ a * (eps * B)) : |rnd v - t| ≤ (a + 101 / 100) * (eps * B) := by
  have e0 := eps_nonneg hr
  have hB : 0 ≤ B := (abs_nonneg _).trans ht
  have z : 0 ≤ eps * B := mul_nonneg e0 hB
  have e := hr.error v
  have hv : |v| ≤ B + a * (eps * B) := by
    have : v = t + (v - t) := by ring
    calc |v| = |t + (v - t)| := by rw [← this]
      _ ≤ |t| + |v - t| := abs_add_le _ _
      _ ≤ _ := by linarith
  have h1 : eps * |v| ≤ eps * (B + a * (eps * B)) := mul_le_mul_of_nonneg_left hv e0
  have h2 : eps * (eps * B) ≤ 1 / 1000 * (eps * B) := mul_le_mul_of_nonneg_right he z
  have h3 : a * (eps * (eps * B)) ≤ 6 * (eps * (eps * B)) := mul_le_mul_of_nonneg_right ha' (mul_nonneg e0 z)
  have h4 : eps * (B + a * (eps * B)) = eps * B + a * (eps * (eps * B)) := by ring
  have : rnd v - t = (rnd v - v) + (v - t) := by ring
  rw [this]
  refine (abs_add_le _ _).trans ?_
  rw [h4] at h1
  linarith

theorem step1 (hr : IsRounding rnd eps big) (he : eps ≤ 1 / 1000) {lo up lo' up' B r : ℚ} (bl : |lo| ≤ B) (bu : |up| ≤ B) (hl : |lo - lo'| ≤ r) (hu : |up - up'| ≤ r) :
    Step1 rnd (r + 7 * (eps * B)) lo up lo' up' := by
  have e0 := eps_nonneg hr
  have hB : 0 ≤ B := (abs_nonneg _).trans bl
  have z : 0 ≤ eps * B := mul_nonneg e0 hB
  -- half of the difference
  have hd1 : |rnd (up - lo) - (up - lo)| ≤ 2 * (eps * B) := by
    have e := hr.error (up - lo)
    have : |up - lo| ≤ 2 * B := by rw [abs_le] at *; constructor <;> linarith
    have := mul_le_mul_of_nonneg_left this e0
    linarith
  have hd : |rnd (1 / 2 * rnd (up - lo)) - 1 / 2 * (up - lo)| ≤ 201 / 100 * (eps * B) := by
    have ht : |1 / 2 * (up - lo)| ≤ B := by rw [abs_le] at *; constructor <;> linarith
    have hv : |1 / 2 * rnd (up - lo) - 1 / 2 * (up - lo)| ≤ 1 * (eps * B) := by rw [abs_le] at *; constructor <;> linarith
    have := rnd_near hr he ht (by norm_num) (by norm_num) hv
    linarith
  set d := rnd (1 / 2 * rnd (up - lo)) with hddef
  have bm : |lo + 1 / 2 * (up - lo)| ≤ B := by rw [abs_le] at *; constructor <;> linarith
  have g2 : |rnd lo - lo| ≤ 101 / 100 * (eps * B) := by
    have := rnd_near hr he bl le_rfl (by norm_num) (show |lo - lo| ≤ 0 * (eps * B) by simp)
    linarith
  have g3 : |rnd up - up| ≤ 101 / 100 * (eps * B) := by
    have := rnd_near hr he bu le_rfl (by norm_num) (show |up - up| ≤ 0 * (eps * B) by simp)
    linarith
  have g4 : |rnd (lo + d) - (lo + 1 / 2 * (up - lo))| ≤ 302 / 100 * (eps * B) := by
    have := rnd_near hr he bm (a := 201 / 100) (v := lo + d) (by norm_num) (by norm_num) (by rw [abs_le] at *; constructor <;> linarith)
    linarith
  have g5 : |rnd (rnd lo + d) - (lo + 1 / 2 * (up - lo))| ≤ 403 / 100 * (eps * B) := by
    have := rnd_near hr he bm (a := 302 / 100) (v := rnd lo + d) (by norm_num) (by norm_num) (by rw [abs_le] at *; constructor <;> linarith)
    linarith
  have g6 : |rnd (rnd (lo + d) + d) - up| ≤ 604 / 100 * (eps * B) := by
    have := rnd_near hr he bu (a := 503 / 100) (v := rnd (lo + d) + d) (by norm_num) (by norm_num) (by rw [abs_le] at *; constructor <;> linarith)
    linarith
  have g7 : |rnd (up - d) - (lo + 1 / 2 * (up - lo))| ≤ 302 / 100 * (eps * B) := by
    have := rnd_near hr he bm (a := 201 / 100) (v := up - d) (by norm_num) (by norm_num) (by rw [abs_le] at *; constructor <;> linarith)
    linarith
  have g8 : |rnd (rnd up - d) - (lo + 1 / 2 * (up - lo))| ≤ 403 / 100 * (eps * B) := by
    have := rnd_near hr he bm (a := 302 / 100) (v := rnd up - d) (by norm_num) (by norm_num) (by rw [abs_le] at *; constructor <;> linarith)
    linarith
  have g9 : |rnd (rnd (up - d) - d) - lo| ≤ 604 / 100 * (eps * B) := by
    have := rnd_near hr he bl (a := 503 / 100) (v := rnd (up - d) - d) (by norm_num) (by norm_num) (by rw [abs_le] at *; constructor <;> linarith)
    linarith
  clear_value d
  rw [abs_le] at hl hu g2 g3 g4 g5 g6 g7 g8 g9
  constructor <;> (try simp only [← hddef]) <;> rw [abs_le] <;> constructor <;> linarith

theorem child_close {b c : Box ℚ} {r : V3 ℚ} (hx : Step1 rnd r.x b.lower.x b.upper.x c.lower.x c.upper.x) (hy : Step1 rnd r.y b.lower.y b.upper.y c.lower.y c.upper.y)
    (hz : Step1 rnd r.z b.lower.z b.upper.z c.lower.z c.upper.z) (k : Nat) : CloseBox r (childBoxR rnd b k) (childBox c k) := by
  have add_def : ∀ a b : V3 ℚ, a + b = ⟨a.x + b.x, a.y + b.y, a.z + b.z⟩ := fun _ _ => rfl
  have sub_def : ∀ a b : V3 ℚ, a - b = ⟨a.x - b.x, a.y - b.y, a.z - b.z⟩ := fun _ _ => rfl
  unfold childBoxR childBox
  split <;>
    simp only [CloseBox, addR, subR, halfR, V3.scale, add_def, sub_def, add_zero, sub_zero] <;>
    refine ⟨⟨?_, ?_⟩, ⟨?_, ?_⟩, ?_, ?_⟩ <;>
    first
    | with_reducible exact hx.f0 | with_reducible exact hx.f1 | with_reducible exact hx.f2 | with_reducible exact hx.f3 | with_reducible exact hx.f4 | with_reducible exact hx.f5 | with_reducible exact hx.f6 | with_reducible exact hx.f7 | with_reducible exact hx.f8 | with_reducible exact hx.f9
    | with_reducible exact hy.f0 | with_reducible exact hy.f1 | with_reducible exact hy.f2 | with_reducible exact hy.f3 | with_reducible exact hy.f4 | with_reducible exact hy.f5 | with_reducible exact hy.f6 | with_reducible exact hy.f7 | with_reducible exact hy.f8 | with_reducible exact hy.f9
    | with_reducible exact hz.f0 | with_reducible exact hz.f1 | with_reducible exact hz.f2 | with_reducible exact hz.f3 | with_reducible exact hz.f4 | with_reducible exact hz.f5 | with_reducible exact hz.f6 | with_reducible exact hz.f7 | with_reducible exact hz.f8 | with_reducible exact hz.f9

theorem childBox_sub {root c : Box ℚ} (h : SubBox c root) (k : Nat) : SubBox (childBox c k) root := by
  obtain ⟨⟨o1, o2, o3⟩, ⟨a1, a2⟩, ⟨a3, a4⟩, ⟨a5, a6⟩⟩ := h
  have add_def : ∀ a b : V3 ℚ, a + b = ⟨a.x + b.x, a.y + b.y, a.z + b.z⟩ := fun _ _ => rfl
  have sub_def : ∀ a b : V3 ℚ, a - b = ⟨a.x - b.x, a.y - b.y, a.z - b.z⟩ := fun _ _ => rfl
  unfold childBox
  split <;> simp only [SubBox, OrderedBox, V3.scale, add_def, sub_def, add_zero, sub_zero] <;> refine ⟨⟨?_, ?_, ?_⟩, ⟨?_, ?_⟩, ⟨?_, ?_⟩, ?_, ?_⟩ <;> linarith

theorem childBox_scaled {root c : Box ℚ} {n : Nat} (h : ScaledDown root c n) (k : Nat) : ScaledDown root (childBox c k) (n + 1) := by
  obtain ⟨h1, h2, h3⟩ := h
  have add_def : ∀ a b : V3 ℚ, a + b = ⟨a.x + b.x, a.y + b.y, a.z + b.z⟩ := fun _ _ => rfl
  have sub_def : ∀ a b : V3 ℚ, a - b = ⟨a.x - b.x, a.y - b.y, a.z - b.z⟩ := fun _ _ => rfl
  unfold childBox
  split <;> simp only [ScaledDown, V3.scale, add_def, sub_def, add_zero, sub_zero, ← h1, ← h2, ← h3, pow_succ] <;> refine ⟨?_, ?_, ?_⟩ <;> ring

theorem sub_abs {lo up x : ℚ} (h1 : lo ≤ x) (h2 : x ≤ up) : |x| ≤ |lo| + |up| := by
  have := le_abs_self up
  have := neg_abs_le lo
  have := abs_nonneg lo
  have := abs_nonneg up
  rw [abs_le]; constructor <;> linarith

theorem level_step (hr : IsRounding rnd eps big) (he : eps ≤ 1 / 1000) {n : Nat} (hn : 14 * n * eps ≤ 1) {M lo up lo' up' : ℚ} (bl : |lo'| ≤ M) (bu : |up'| ≤ M)
    (hl : |lo - lo'| ≤ 14 * n * eps * M) (hu : |up - up'| ≤ 14 * n * eps * M) : Step1 rnd (14 * (n + 1 : ℕ) * eps * M) lo up lo' up' := by
  have hM : 0 ≤ M := (abs_nonneg _).trans bl
  have h1 : 14 * n * eps * M ≤ 1 * M := mul_le_mul_of_nonneg_right hn hM
  have b1 : |lo| ≤ 2 * M := by rw [abs_le] at *; constructor <;> linarith
  have b2 : |up| ≤ 2 * M := by rw [abs_le] at *; constructor <;> linarith
  have := step1 hr he b1 b2 hl hu
  have e : 14 * n * eps * M + 7 * (eps * (2 * M)) = 14 * (n + 1 : ℕ) * eps * M := by push_cast; ring
  rwa [e] at this

/-- What is known of a box of level `n`. -/
def Inv (eps : ℚ) (root : Box ℚ) (n : Nat) (b : Box ℚ) : Prop := ∃ c, SubBox c root ∧ ScaledDown root c n ∧ CloseBox (tolAt eps root n) b c

theorem Inv.child (hr : IsRounding rnd eps big) (he : eps ≤ 1 / 1000) {n : Nat} (hn : 14 * n * eps ≤ 1) {root b : Box ℚ} (h : Inv eps root n b) (k : Nat) : Inv eps root (n + 1) (childBoxR rnd b k) := by
  obtain ⟨c, h1, h2, ⟨a1, a2⟩, ⟨a3, a4⟩, ⟨a5, a6⟩⟩ := h
  obtain ⟨⟨o1, o2, o3⟩, ⟨s1, s2⟩, ⟨s3, s4⟩, ⟨s5, s6⟩⟩ := id h1
  exact ⟨childBox c k, childBox_sub h1 k, childBox_scaled h2 k, child_close (level_step hr he hn (sub_abs s1 (by linarith)) (sub_abs (by linarith) s2) a1 a2)
    (level_step hr he hn (sub_abs s3 (by linarith)) (sub_abs (by linarith) s4) a3 a4) (level_step hr he hn (sub_abs s5 (by linarith)) (sub_abs (by linarith) s6) a5 a6) k⟩

theorem mem_node_leaves {xyz uvw : Box ℚ} {st : IState} {level num : Nat} {c0 c1 c2 c3 c4 c5 c6 c7 : Node ℚ} {e : Leaf ℚ} (h : e ∈ (Node.node xyz uvw st level num c0 c1 c2 c3 c4 c5 c6 c7).leaves) :
    e = ⟨xyz, uvw, st, level⟩ ∨ e ∈ c0.leaves ∨ e ∈ c1.leaves ∨ e ∈ c2.leaves ∨ e ∈ c3.leaves ∨ e ∈ c4.leaves ∨ e ∈ c5.leaves ∨ e ∈ c6.leaves ∨ e ∈ c7.leaves := by
  rw [Node.leaves] at h
  split at h
  · exact Or.inl (List.mem_singleton.1 h)
  · simp only [List.mem_append] at h
    tauto

theorem leaves_inv (hr : IsRounding rnd eps big) (he : eps ≤ 1 / 1000) (state : Box ℚ → IState) (minL maxL : Nat) (hn : 14 * (max minL maxL : ℕ) * eps ≤ 1) (root rootU : Box ℚ) (d : Nat) :
    ∀ (xyz uvw : Box ℚ) (st : IState) (level : Nat), max minL maxL - level = d → Inv eps root level xyz → Inv eps rootU level uvw →
      ∀ e ∈ (refineLeafR rnd state minL maxL xyz uvw st level).leaves, Inv eps root e.level e.xyz ∧ Inv eps rootU e.level e.uvw := by
  have e0 := eps_nonneg hr
  induction d with
  | zero =>
    intro xyz uvw st level hd h1 h2 e he'
    have hn : ¬ (level < minL ∨ (level < maxL ∧ st = .trimmed)) := by omega
    rw [refineLeafR, dif_neg hn] at he'
    simp only [leaf, Node.leaves, if_true, List.mem_singleton] at he'
    subst he'
    exact ⟨h1, h2⟩
  | succ d ih =>
    intro xyz uvw st level hd h1 h2 e he'
    rw [refineLeafR] at he'
    split at he'
    · have hlev : 14 * (level : ℚ) * eps ≤ 1 := by
        have : (level : ℚ) ≤ (max minL maxL : ℕ) := by exact_mod_cast (by omega : level ≤ max minL maxL)
        have := mul_le_mul_of_nonneg_right this e0
        linarith
      have key : ∀ k, ∀ e ∈ (if state (childBoxR rnd xyz k) ≠ .outside then
            refineLeafR rnd state minL maxL (childBoxR rnd xyz k) (childBoxR rnd uvw k) (state (childBoxR rnd xyz k)) (level + 1) else Node.null).leaves,
          Inv eps root e.level e.xyz ∧ Inv eps rootU e.level e.uvw := by
        intro k e hk
        split at hk
        · exact ih _ _ _ (level + 1) (by omega) (h1.child hr he hlev k) (h2.child hr he hlev k) e hk
        · simp [Node.leaves] at hk
      rcases mem_node_leaves he' with h | h | h | h | h | h | h | h | h
      · subst h
        exact ⟨h1, h2⟩
      all_goals exact key _ e h
    · simp only [leaf, Node.leaves, if_true, List.mem_singleton] at he'
      subst he'
      exact ⟨h1, h2⟩

/-- **C114** (accuracy).  For every machine arithmetic with relative error at most `eps ≤ 1/1000` and every depth up to `1 / (14 eps)`: every computed leaf is close to the box that it stands for: there
is a box in the root box, of the size of the root box divided by two to the power of the level, from which the leaf differs by at most `14 level eps (|lower| + |upper|)` in each coordinate.
This holds in both spaces. -/
theorem C114_error (hr : IsRounding rnd eps big) (he : eps ≤ 1 / 1000) {state : Box ℚ → IState} {xyz uvw : Box ℚ} (hx : OrderedBox xyz) (hu : OrderedBox uvw) {minL maxL : Nat}
    (hn : 14 * maxL * eps ≤ 1) {t : Node ℚ} (h : octreeR rnd state xyz uvw minL maxL = some t) :
    ∀ e ∈ t.leaves, (∃ c, SubBox c xyz ∧ ScaledDown xyz c e.level ∧ CloseBox (tolAt eps xyz e.level) e.xyz c) ∧ ∃ c, SubBox c uvw ∧ ScaledDown uvw c e.level ∧ CloseBox (tolAt eps uvw e.level) e.uvw c := by
  unfold octreeR at h
  split at h
  · cases h
  · rename_i hmm
    cases h
    have hmax : max minL maxL = maxL := by omega
    have start : ∀ b : Box ℚ, OrderedBox b → Inv eps b 0 b := fun b hb => by
      refine ⟨b, ⟨hb, ⟨le_rfl, le_rfl⟩, ⟨le_rfl, le_rfl⟩, le_rfl, le_rfl⟩, by simp [ScaledDown], ?_⟩
      simp [CloseBox, tolAt]
    exact leaves_inv hr he state minL maxL (by rw [hmax]; exact hn) xyz uvw _ xyz uvw .trimmed 0 rfl (start _ hx) (start _ hu)

end

/-- **C114** (accuracy, double precision), for every depth up to a hundred million. -/
theorem C114_error_binary64 {state : Box ℚ → IState} {xyz uvw : Box ℚ} (hx : OrderedBox xyz) (hu : OrderedBox uvw) {minL maxL : Nat} (hn : maxL ≤ 10 ^ 8) {t : Node ℚ}
    (h : octreeR binary64 state xyz uvw minL maxL = some t) :
    ∀ e ∈ t.leaves, (∃ c, SubBox c xyz ∧ ScaledDown xyz c e.level ∧ CloseBox (tolAt (1 / 2 ^ 53) xyz e.level) e.xyz c) ∧
      ∃ c, SubBox c uvw ∧ ScaledDown uvw c e.level ∧ CloseBox (tolAt (1 / 2 ^ 53) uvw e.level) e.uvw c := by
  refine C114_error binary64_isRounding (by norm_num) hx hu ?_ h
  have : (maxL : ℚ) ≤ 10 ^ 8 := by exact_mod_cast hn
  have := mul_le_mul_of_nonneg_right this (by norm_num : (0 : ℚ) ≤ 1 / 2 ^ 53)
  linarith [show (14 : ℚ) * (10 ^ 8 * (1 / 2 ^ 53)) ≤ 1 by norm_num]

/-- The hypotheses are met by the cube from -1.7 to 2. -/
example : let b : Box ℚ := ⟨⟨-17 / 10, -17 / 10, -17 / 10⟩, ⟨2, 2, 2⟩⟩
    ∃ t, octreeR binary64 (fun _ => .trimmed) b b 1 1 = some t ∧ t.leaves.length = 8 ∧ ∀ e ∈ t.leaves, ∃ c, SubBox c b ∧ ScaledDown b c e.level ∧ CloseBox (tolAt (1 / 2 ^ 53) b e.level) e.xyz c := by
  intro b
  have hb : OrderedBox b := by norm_num [OrderedBox, b]
  obtain ⟨t, h, hl⟩ := one_level binary64 (state := fun _ => .trimmed) (by simp) b b
  refine ⟨t, h, ?_, fun e he => (C114_error_binary64 hb hb (by norm_num) h e he).1⟩
  have := congrArg List.length hl
  simpa using this

end QuESo.Props
