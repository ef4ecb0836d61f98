import Verif.Model.RoundingOctree
import Verif.Proofs.Rounding
import Verif.Props.Octree

/-!
# C114: the leaves of the octree in floating-point arithmetic
-/
namespace QuESo.Props
open QuESo.Spec QuESo.Round QuESo.Octree

section
variable {rnd : ℚ → ℚ} {g : ℚ} {N : ℕ}

/-- Whole multiples of `2 ^ m * g`. -/
def Lat (g : ℚ) (m : Nat) (x : ℚ) : Prop := ∃ z : ℤ, x = (2 ^ m * z : ℤ) * g

theorem Lat.down {m : Nat} {x : ℚ} (h : Lat g (m + 1) x) : Lat g m x := by
  obtain ⟨z, rfl⟩ := h
  exact ⟨2 * z, by push_cast; ring⟩

theorem Lat.add {m : Nat} {x y : ℚ} (h : Lat g m x) (h' : Lat g m y) : Lat g m (x + y) := by
  obtain ⟨z, rfl⟩ := h
  obtain ⟨w, rfl⟩ := h'
  exact ⟨z + w, by push_cast; ring⟩

theorem Lat.sub {m : Nat} {x y : ℚ} (h : Lat g m x) (h' : Lat g m y) : Lat g m (x - y) := by
  obtain ⟨z, rfl⟩ := h
  obtain ⟨w, rfl⟩ := h'
  exact ⟨z - w, by push_cast; ring⟩

theorem Lat.half {m : Nat} {x y : ℚ} (h : Lat g (m + 1) x) (h' : Lat g (m + 1) y) : Lat g m (1 / 2 * (x - y)) := by
  obtain ⟨z, rfl⟩ := h
  obtain ⟨w, rfl⟩ := h'
  exact ⟨z - w, by push_cast; ring⟩

theorem rnd_lat (hg : 0 < g) (hrep : ∀ z : ℤ, |z| ≤ 2 * N → rnd (z * g) = z * g) {m : Nat} {x : ℚ} (h : Lat g m x) (hx : |x| ≤ 2 * N * g) : rnd x = x := by
  obtain ⟨z, rfl⟩ := h
  refine hrep _ ?_
  rw [abs_mul, abs_of_pos hg] at hx
  have := le_of_mul_le_mul_right hx hg
  exact_mod_cast this

/-- One direction: all values that occur are exact. -/
structure Exact1 (rnd : ℚ → ℚ) (lo up : ℚ) : Prop where
  diff : rnd (up - lo) = up - lo
  half : rnd (1 / 2 * (up - lo)) = 1 / 2 * (up - lo)
  lo0 : rnd lo = lo
  up0 : rnd up = up
  lo1 : rnd (lo + 1 / 2 * (up - lo)) = lo + 1 / 2 * (up - lo)
  lo2 : rnd (lo + 1 / 2 * (up - lo) + 1 / 2 * (up - lo)) = lo + 1 / 2 * (up - lo) + 1 / 2 * (up - lo)
  up1 : rnd (up - 1 / 2 * (up - lo)) = up - 1 / 2 * (up - lo)
  up2 : rnd (up - 1 / 2 * (up - lo) - 1 / 2 * (up - lo)) = up - 1 / 2 * (up - lo) - 1 / 2 * (up - lo)

theorem exact1 (hg : 0 < g) (hrep : ∀ z : ℤ, |z| ≤ 2 * N → rnd (z * g) = z * g) {m : Nat} {lo up : ℚ} (hl : Lat g (m + 1) lo) (hu : Lat g (m + 1) up) (h : lo ≤ up)
    (bl : |lo| ≤ N * g) (bu : |up| ≤ N * g) : Exact1 rnd lo up := by
  rw [abs_le] at bl bu
  have z : 0 ≤ (N : ℚ) * g := by positivity
  have hd := hl.half hu
  have hd' := hu.half hl
  have r : ∀ {x : ℚ}, Lat g m x → -(2 * (N * g)) ≤ x → x ≤ 2 * (N * g) → rnd x = x := by
    intro x hx h1 h2
    exact rnd_lat hg hrep hx (by rw [abs_le]; constructor <;> linarith)
  exact ⟨r (hu.sub hl).down (by linarith) (by linarith), r hd' (by linarith) (by linarith), r hl.down (by linarith) (by linarith), r hu.down (by linarith) (by linarith),
    r (hl.down.add hd') (by linarith) (by linarith), r ((hl.down.add hd').add hd') (by linarith) (by linarith), r (hu.down.sub hd') (by linarith) (by linarith),
    r ((hu.down.sub hd').sub hd') (by linarith) (by linarith)⟩

theorem childBoxR_eq {b : Box ℚ} (hx : Exact1 rnd b.lower.x b.upper.x) (hy : Exact1 rnd b.lower.y b.upper.y) (hz : Exact1 rnd b.lower.z b.upper.z) (k : Nat) : childBoxR rnd b k = childBox b k := by
  have add_def : ∀ a b : V3 ℚ, a + b = ⟨a.x + b.x, a.y + b.y, a.z + b.z⟩ := fun _ _ => rfl
  have sub_def : ∀ a b : V3 ℚ, a - b = ⟨a.x - b.x, a.y - b.y, a.z - b.z⟩ := fun _ _ => rfl
  unfold childBoxR childBox
  split <;>
    simp only [addR, subR, halfR, V3.scale, add_def, sub_def, add_zero, sub_zero, hx.diff, hx.half, hx.lo0, hx.up0, hx.lo1, hx.lo2, hx.up1, hx.up2, hy.diff, hy.half, hy.lo0, hy.up0, hy.lo1,
      hy.lo2, hy.up1, hy.up2, hz.diff, hz.half, hz.lo0, hz.up0, hz.lo1, hz.lo2, hz.up1, hz.up2]

/-- A box whose coordinates are whole multiples of `2 ^ m * g`, at most `N * g`. -/
structure LBox (g : ℚ) (N m : Nat) (b : Box ℚ) : Prop where
  ordered : OrderedBox b
  lat : ∀ x ∈ [b.lower.x, b.lower.y, b.lower.z, b.upper.x, b.upper.y, b.upper.z], Lat g m x ∧ |x| ≤ N * g

theorem LBox.exact (hg : 0 < g) (hrep : ∀ z : ℤ, |z| ≤ 2 * N → rnd (z * g) = z * g) {m : Nat} {b : Box ℚ} (h : LBox g N (m + 1) b) (k : Nat) : childBoxR rnd b k = childBox b k := by
  obtain ⟨⟨o1, o2, o3⟩, hl⟩ := h
  simp only [List.mem_cons, List.not_mem_nil, or_false, forall_eq_or_imp, forall_eq] at hl
  obtain ⟨a1, a2, a3, a4, a5, a6⟩ := hl
  exact childBoxR_eq (exact1 hg hrep a1.1 a4.1 o1 a1.2 a4.2) (exact1 hg hrep a2.1 a5.1 o2 a2.2 a5.2) (exact1 hg hrep a3.1 a6.1 o3 a3.2 a6.2) k

/-- One direction of the children. -/
theorem child1 {m : Nat} {lo up : ℚ} (hl : Lat g (m + 1) lo) (hu : Lat g (m + 1) up) (h : lo ≤ up) (bl : |lo| ≤ N * g) (bu : |up| ≤ N * g) :
    (Lat g m lo ∧ |lo| ≤ N * g) ∧ (Lat g m up ∧ |up| ≤ N * g) ∧ (Lat g m (lo + 1 / 2 * (up - lo)) ∧ |lo + 1 / 2 * (up - lo)| ≤ N * g) := by
  refine ⟨⟨hl.down, bl⟩, ⟨hu.down, bu⟩, hl.down.add (hu.half hl), ?_⟩
  rw [abs_le] at *
  constructor <;> linarith

theorem LBox.child {m : Nat} {b : Box ℚ} (h : LBox g N (m + 1) b) (k : Nat) : LBox g N m (childBox b k) := by
  obtain ⟨⟨o1, o2, o3⟩, hl⟩ := h
  simp only [List.mem_cons, List.not_mem_nil, or_false, forall_eq_or_imp, forall_eq] at hl
  obtain ⟨a1, a2, a3, a4, a5, a6⟩ := hl
  have c1 := child1 a1.1 a4.1 o1 a1.2 a4.2
  have c2 := child1 a2.1 a5.1 o2 a2.2 a5.2
  have c3 := child1 a3.1 a6.1 o3 a3.2 a6.2
  have add_def : ∀ a b : V3 ℚ, a + b = ⟨a.x + b.x, a.y + b.y, a.z + b.z⟩ := fun _ _ => rfl
  have sub_def : ∀ a b : V3 ℚ, a - b = ⟨a.x - b.x, a.y - b.y, a.z - b.z⟩ := fun _ _ => rfl
  have e1 : ∀ lo up : ℚ, lo + 1 / 2 * (up - lo) + 1 / 2 * (up - lo) = up := fun _ _ => by ring
  have e2 : ∀ lo up : ℚ, up - 1 / 2 * (up - lo) = lo + 1 / 2 * (up - lo) := fun _ _ => by ring
  have e3 : ∀ lo up : ℚ, lo + 1 / 2 * (up - lo) - 1 / 2 * (up - lo) = lo := fun _ _ => by ring
  unfold childBox
  split <;> refine ⟨?_, ?_⟩ <;>
    simp only [OrderedBox, V3.scale, add_def, sub_def, add_zero, sub_zero, e1, e2, e3, List.mem_cons, List.not_mem_nil, or_false, forall_eq_or_imp, forall_eq]
  all_goals first
    | exact ⟨by linarith, by linarith, by linarith⟩
    | simp only [c1, c2, c3, and_self, true_and]

theorem refineLeafR_eq (hg : 0 < g) (hrep : ∀ z : ℤ, |z| ≤ 2 * N → rnd (z * g) = z * g) (state : Box ℚ → IState) (minL maxL : Nat) (d : Nat) :
    ∀ (xyz uvw : Box ℚ) (st : IState) (level : Nat), max minL maxL - level = d → LBox g N d xyz → LBox g N d uvw →
      refineLeafR rnd state minL maxL xyz uvw st level = refineLeaf state minL maxL xyz uvw st level := by
  induction d with
  | zero =>
    intro xyz uvw st level hd _ _
    have hn : ¬ (level < minL ∨ (level < maxL ∧ st = .trimmed)) := by omega
    rw [refineLeafR, refineLeaf, dif_neg hn, dif_neg hn]
  | succ d ih =>
    intro xyz uvw st level hd hx hu
    rw [refineLeafR, refineLeaf]
    split
    · have key : ∀ k, (if state (childBoxR rnd xyz k) ≠ .outside then
            refineLeafR rnd state minL maxL (childBoxR rnd xyz k) (childBoxR rnd uvw k) (state (childBoxR rnd xyz k)) (level + 1) else Node.null) =
          (if state (childBox xyz k) ≠ .outside then refineLeaf state minL maxL (childBox xyz k) (childBox uvw k) (state (childBox xyz k)) (level + 1) else Node.null) := by
        intro k
        rw [hx.exact hg hrep k, hu.exact hg hrep k, ih _ _ _ (level + 1) (by omega) (hx.child k) (hu.child k)]
      simp only [key]
    · rfl

/-- **C114** (partial: coordinates with few digits).  If all whole multiples of some `g` up to `2 N g` are numbers of the machine, and the coordinates of the two boxes are whole multiples of `2 ^ L g`
up to `N g`, then up to level `L` no rounding occurs: the computed leaves, together with boxes classified as outside, tile the box.  Missing: other coordinates, see `C114_false_of_code`. -/
theorem C114_tiles_partial (hg : 0 < g) (hrep : ∀ z : ℤ, |z| ≤ 2 * N → rnd (z * g) = z * g) {state : Box ℚ → IState} {xyz uvw : Box ℚ} {minL maxL : Nat} (hx : OrderedBox xyz) (hu : OrderedBox uvw)
    (hl : ∀ x ∈ [xyz.lower.x, xyz.lower.y, xyz.lower.z, xyz.upper.x, xyz.upper.y, xyz.upper.z] ++ [uvw.lower.x, uvw.lower.y, uvw.lower.z, uvw.upper.x, uvw.upper.y, uvw.upper.z],
      (∃ z : ℤ, x = (2 ^ maxL * z : ℤ) * g) ∧ |x| ≤ N * g)
    {t : Node ℚ} (h : octreeR rnd state xyz uvw minL maxL = some t) :
    ∃ pruned : List (Box ℚ × Box ℚ), (∀ q ∈ pruned, state q.1 = .outside) ∧ Tiles xyz (t.leaves.map Leaf.xyz ++ pruned.map Prod.fst) ∧ Tiles uvw (t.leaves.map Leaf.uvw ++ pruned.map Prod.snd) := by
  unfold octreeR at h
  split at h
  · cases h
  · rename_i hmm
    have hmax : max minL maxL - 0 = maxL := by omega
    rw [refineLeafR_eq hg hrep state minL maxL maxL xyz uvw .trimmed 0 hmax ⟨hx, fun x hx' => hl x (List.mem_append_left _ hx')⟩ ⟨hu, fun x hx' => hl x (List.mem_append_right _ hx')⟩] at h
    cases h
    have hr : refines state (new xyz uvw) [(minL, maxL)] = some ⟨refineLeaf state minL maxL xyz uvw .trimmed 0, minL, maxL⟩ := by
      simp [refines, refine, hmm, new, leaf, refineNode]
    exact C19_tiles hx hu hr

/-- A tree with one level if nothing is outside. -/
theorem one_level (rnd : ℚ → ℚ) {state : Box ℚ → IState} (hs : ∀ b, state b ≠ .outside) (xyz uvw : Box ℚ) :
    ∃ t, octreeR rnd state xyz uvw 1 1 = some t ∧ t.leaves.map Leaf.xyz = (List.range 8).map (childBoxR rnd xyz) := by
  refine ⟨_, rfl, ?_⟩
  have hleaf : ∀ b c st, refineLeafR rnd state 1 1 b c st 1 = leaf b c st 1 := by
    intro b c st
    rw [refineLeafR, dif_neg (by omega)]
  rw [refineLeafR, dif_pos (by omega)]
  simp only [hs, ne_eq, not_false_eq_true, if_true, zero_add, hleaf, leaf, Node.count, Node.leaves]
  rfl

end

theorem log_scale {x : ℚ} (hx : 0 < x) (e : ℤ) : Int.log 2 (x * 2 ^ e) = Int.log 2 x + e := by
  have he : (0 : ℚ) < 2 ^ e := zpow_pos (by norm_num) e
  have hxe : 0 < x * 2 ^ e := mul_pos hx he
  have h1 := Int.zpow_log_le_self (b := 2) (by norm_num) hx
  have h2 := Int.lt_zpow_succ_log_self (b := 2) (by norm_num) x
  push_cast at h1 h2
  apply le_antisymm
  · have : x * 2 ^ e < ((2 : ℕ) : ℚ) ^ (Int.log 2 x + e + 1) := by
      push_cast
      rw [show Int.log 2 x + e + 1 = (Int.log 2 x + 1) + e by ring, zpow_add₀ (by norm_num)]
      exact mul_lt_mul_of_pos_right h2 he
    have := (Int.lt_zpow_iff_log_lt (b := 2) (by norm_num) hxe).mp this
    omega
  · refine (Int.zpow_le_iff_le_log (b := 2) (by norm_num) hxe).mp ?_
    push_cast
    rw [zpow_add₀ (by norm_num)]
    exact mul_le_mul_of_nonneg_right h1 he.le

theorem b64_scale (x : ℚ) (e : ℤ) : binary64 (x * 2 ^ e) = binary64 x * 2 ^ e := by
  have he : (0 : ℚ) < 2 ^ e := zpow_pos (by norm_num) e
  have pos : ∀ x : ℚ, 0 < x → binary64 (x * 2 ^ e) = binary64 x * 2 ^ e := by
    intro x hx
    have hu : ulp (x * 2 ^ e) = ulp x * 2 ^ e := by
      unfold ulp
      rw [log_scale hx, ← zpow_add₀ (by norm_num)]
      congr 1; ring
    have := ulp_pos x
    rw [b64_pos (mul_pos hx he), b64_pos hx, hu, mul_div_mul_right _ _ he.ne', mul_assoc]
  rcases lt_trichotomy x 0 with h | h | h
  · have := pos (-x) (by linarith)
    rw [neg_mul, b64_neg, b64_neg] at this
    linarith
  · rw [h, zero_mul, b64_zero, zero_mul]
  · exact pos x h

/-- Whole multiples of a power of two, up to 2⁵³ times it, are represented exactly in double precision. -/
theorem b64_lattice (z : ℤ) (e : ℤ) (h : |z| ≤ 2 ^ 53) : binary64 (z * 2 ^ e) = z * 2 ^ e := by
  rw [b64_scale]
  congr 1
  obtain ⟨n, rfl | rfl⟩ := Int.eq_nat_or_neg z
  · have : n ≤ 2 ^ 53 := by
      have := h
      rw [Nat.abs_cast] at this
      exact_mod_cast this
    exact_mod_cast b64_whole n this
  · have : n ≤ 2 ^ 53 := by
      have := h
      rw [abs_neg, Nat.abs_cast] at this
      exact_mod_cast this
    push_cast
    rw [b64_neg, b64_whole n this]

/-- **C114** (partial, in double precision).  Boxes whose coordinates are whole multiples of `2 ^ (maxL + e)`, at most `2 ^ (52 + e)`: the computed leaves and the boxes classified as outside tile the
box. -/
theorem C114_binary64_partial (e : ℤ) {state : Box ℚ → IState} {xyz uvw : Box ℚ} {minL maxL : Nat} (hx : OrderedBox xyz) (hu : OrderedBox uvw)
    (hl : ∀ x ∈ [xyz.lower.x, xyz.lower.y, xyz.lower.z, xyz.upper.x, xyz.upper.y, xyz.upper.z] ++ [uvw.lower.x, uvw.lower.y, uvw.lower.z, uvw.upper.x, uvw.upper.y, uvw.upper.z],
      (∃ z : ℤ, x = z * 2 ^ (maxL + e)) ∧ |x| ≤ 2 ^ (52 + e))
    {t : Node ℚ} (h : octreeR binary64 state xyz uvw minL maxL = some t) :
    ∃ pruned : List (Box ℚ × Box ℚ), (∀ q ∈ pruned, state q.1 = .outside) ∧ Tiles xyz (t.leaves.map Leaf.xyz ++ pruned.map Prod.fst) ∧ Tiles uvw (t.leaves.map Leaf.uvw ++ pruned.map Prod.snd) := by
  refine C114_tiles_partial (g := 2 ^ e) (N := 2 ^ 52) (zpow_pos (by norm_num) e) (fun z hz => b64_lattice z e (by push_cast at hz; omega)) hx hu (fun x hx' => ?_) h
  obtain ⟨⟨z, hz⟩, hb⟩ := hl x hx'
  constructor
  · refine ⟨z, ?_⟩
    rw [hz, zpow_add₀ (by norm_num)]
    push_cast
    rw [zpow_natCast]; ring
  · rw [zpow_add₀ (by norm_num)] at hb
    push_cast
    exact_mod_cast hb

/-- A tree that meets the hypotheses: the box from (0, 1, 2) to (1, 3, 5), refined up to level 10. -/
example : let b : Box ℚ := ⟨⟨0, 1, 2⟩, ⟨1, 3, 5⟩⟩
    ∃ t, octreeR binary64 (fun _ => .trimmed) b b 3 10 = some t ∧ ∃ pruned : List (Box ℚ × Box ℚ), Tiles b (t.leaves.map Leaf.xyz ++ pruned.map Prod.fst) := by
  intro b
  refine ⟨_, rfl, ?_⟩
  obtain ⟨pruned, _, h, _⟩ := C114_binary64_partial (-10) (state := fun _ => .trimmed) (xyz := b) (uvw := b) (minL := 3) (maxL := 10) (by norm_num [OrderedBox, b]) (by norm_num [OrderedBox, b]) (by
    intro x hx
    simp only [b, List.cons_append, List.nil_append, List.mem_cons, List.not_mem_nil, or_false] at hx
    have key : ∀ n : ℕ, n ≤ 5 → (∃ z : ℤ, (n : ℚ) = z * 2 ^ (((10 : ℕ) : ℤ) + (-10))) ∧ |(n : ℚ)| ≤ 2 ^ ((52 : ℤ) + (-10)) := by
      intro n hn
      refine ⟨⟨n, by norm_num⟩, ?_⟩
      rw [Nat.abs_cast]
      have : (n : ℚ) ≤ 5 := by exact_mod_cast hn
      refine this.trans ?_
      norm_num
    rcases hx with h | h | h | h | h | h | h | h | h | h | h | h <;> rw [h]
    all_goals first
      | exact_mod_cast key 0 (by norm_num)
      | exact_mod_cast key 1 (by norm_num)
      | exact_mod_cast key 2 (by norm_num)
      | exact_mod_cast key 3 (by norm_num)
      | exact_mod_cast key 5 (by norm_num)) rfl
  exact ⟨pruned, h⟩

/-- **C114 is false of the code** (gaps).  A cell of a grid with six cells per direction on the unit cube, in double precision, with a geometry that is nowhere outside: after one refinement, a corner
of the cell lies in no leaf. -/
theorem C114_gap_false_of_code : ∃ b : Box ℚ, ProperBox b ∧ b = boxXYZR binary64 false ⟨6, 6, 6⟩ ⟨⟨0, 0, 0⟩, ⟨1, 1, 1⟩⟩ 129 ∧ ∀ uvw : Box ℚ, ∃ t,
    octreeR binary64 (fun _ => .trimmed) b uvw 1 1 = some t ∧ InBox b ⟨b.upper.x, b.lower.y, b.lower.z⟩ ∧ ∀ e ∈ t.leaves, ¬ InBox e.xyz ⟨b.upper.x, b.lower.y, b.lower.z⟩ := by
  have hb : boxXYZR binary64 false ⟨6, 6, 6⟩ ⟨⟨0, 0, 0⟩, ⟨1, 1, 1⟩⟩ 129 =
      ⟨⟨1 / 2, 1 / 2, 1 / 2⟩, ⟨6004799503160661 / 9007199254740992, 6004799503160661 / 9007199254740992, 6004799503160661 / 9007199254740992⟩⟩ := by decide +kernel
  refine ⟨_, ?_, rfl, fun uvw => ?_⟩
  · rw [hb]; norm_num [ProperBox]
  · obtain ⟨t, ht, hl⟩ := one_level binary64 (state := fun _ => .trimmed) (by simp) (boxXYZR binary64 false ⟨6, 6, 6⟩ ⟨⟨0, 0, 0⟩, ⟨1, 1, 1⟩⟩ 129) uvw
    refine ⟨t, ht, by rw [hb]; norm_num [InBox], fun e he hc => ?_⟩
    have hm : e.xyz ∈ t.leaves.map Leaf.xyz := List.mem_map_of_mem he
    rw [hl, List.mem_map] at hm
    obtain ⟨k, hk, hke⟩ := hm
    rw [← hke, hb] at hc
    have h8 : ∀ k < 8, let b : Box ℚ := ⟨⟨1 / 2, 1 / 2, 1 / 2⟩, ⟨6004799503160661 / 9007199254740992, 6004799503160661 / 9007199254740992, 6004799503160661 / 9007199254740992⟩⟩
        (childBoxR binary64 b k).upper.x < b.upper.x ∨ b.lower.y < (childBoxR binary64 b k).lower.y ∨ b.lower.z < (childBoxR binary64 b k).lower.z := by decide +kernel
    rcases h8 k (List.mem_range.mp hk) with h | h | h
    · exact absurd hc.1.2 (not_le.mpr h)
    · exact absurd hc.2.1.1 (not_le.mpr h)
    · exact absurd hc.2.2.1 (not_le.mpr h)

/-- **C114 is false of the code** (overlaps).  The cube from -1.7 to 2 (the double next to -1.7), in double precision, with a geometry that is nowhere outside: after one refinement two leaves overlap. -/
theorem C114_overlap_false_of_code : ∃ b : Box ℚ, ProperBox b ∧ binary64 b.lower.x = b.lower.x ∧ binary64 b.upper.x = b.upper.x ∧ ∀ uvw : Box ℚ, ∃ t,
    octreeR binary64 (fun _ => .trimmed) b uvw 1 1 = some t ∧ ¬ t.leaves.Pairwise fun c d => ∀ p, ¬ (InBoxInterior c.xyz p ∧ InBoxInterior d.xyz p) := by
  refine ⟨⟨⟨-7656119366529843 / 4503599627370496, -7656119366529843 / 4503599627370496, -7656119366529843 / 4503599627370496⟩, ⟨2, 2, 2⟩⟩, by norm_num [ProperBox], by decide +kernel, by decide +kernel,
    fun uvw => ?_⟩
  obtain ⟨t, ht, hl⟩ := one_level binary64 (state := fun _ => .trimmed) (by simp)
    ⟨⟨-7656119366529843 / 4503599627370496, -7656119366529843 / 4503599627370496, -7656119366529843 / 4503599627370496⟩, ⟨2, 2, 2⟩⟩ uvw
  refine ⟨t, ht, fun hp => ?_⟩
  have hp' : (t.leaves.map Leaf.xyz).Pairwise fun c d => ∀ p, ¬ (InBoxInterior c p ∧ InBoxInterior d p) := List.pairwise_map.mpr hp
  rw [hl] at hp'
  have h23 := List.pairwise_iff_getElem.mp hp' 2 3 (by simp) (by simp) (by norm_num)
  simp only [List.getElem_map, List.getElem_range] at h23
  have hin : let b : Box ℚ := ⟨⟨-7656119366529843 / 4503599627370496, -7656119366529843 / 4503599627370496, -7656119366529843 / 4503599627370496⟩, ⟨2, 2, 2⟩⟩
      let c := childBoxR binary64 b 2
      let d := childBoxR binary64 b 3
      let p : V3 ℚ := ⟨(c.lower.x + d.upper.x) / 2, 3 / 2, -1⟩
      ((c.lower.x < p.x ∧ p.x < c.upper.x) ∧ (c.lower.y < p.y ∧ p.y < c.upper.y) ∧ (c.lower.z < p.z ∧ p.z < c.upper.z)) ∧
      ((d.lower.x < p.x ∧ p.x < d.upper.x) ∧ (d.lower.y < p.y ∧ p.y < d.upper.y) ∧ (d.lower.z < p.z ∧ p.z < d.upper.z)) := by decide +kernel
  exact h23 _ hin

end QuESo.Props
