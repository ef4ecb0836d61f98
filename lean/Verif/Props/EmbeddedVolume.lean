import Verif.Props.EmbeddedModel
import Verif.Props.Rules
import Verif.Proofs.Mapping
import Verif.Props.MeshUtilities

/-!
# Properties C69 (full cells) and C71: represented volume of full cells, warning about the bounding box
-/
namespace QuESo.Props
open QuESo.BGrid QuESo.Mapping QuESo.Spec QuESo.Embedded QuESo.Rules


theorem triPoly_one (dx dy dz : ℕ) : TriPoly dx dy dz (fun _ _ _ => 1) :=
  ⟨fun _ _ => ⟨1, by simp, by simp⟩, fun _ _ => ⟨1, by simp, by simp⟩, fun _ _ => ⟨1, by simp, by simp⟩,
    continuous_const⟩

theorem pointSum_one (pts : List (VolPoint ℚ)) :
    pointSum pts (fun _ _ _ => 1) = (((pts.map fun q => q.weight).sum : ℚ) : ℝ) := by
  unfold pointSum
  induction pts with
  | nil => simp
  | cons q l ih => simp only [List.map_cons, List.sum_cons, mul_one] at ih ⊢; rw [ih]; push_cast; rfl

/-- The weights of the points of a Gauss rule on a box add up to its volume, up to rounding of the tables. -/
theorem gauss_weights {method : Method} (hm : isGGQ method = false) {order : V3 ℕ}
    (hx : reduction method ≤ order.x ∧ order.x < 10 + reduction method)
    (hy : reduction method ≤ order.y ∧ order.y < 10 + reduction method)
    (hz : reduction method ≤ order.z ∧ order.z < 10 + reduction method) {b : Box ℚ} (hb : ProperBox b)
    {pts : List (VolPoint ℚ)} (hpts : elementRule order method b = .ok pts) :
    |(pts.map fun q => q.weight).sum - boxVolume b| ≤ 4 / 10 ^ 12 * boxVolume b := by
  obtain ⟨pts', h1, -, h3⟩ := C67_element hm hx hy hz (b := b) ⟨hb.1.le, hb.2.1.le, hb.2.2.le⟩
  rw [hpts] at h1
  obtain rfl : pts = pts' := by simpa using h1
  have h := h3 (fun _ _ _ => 1) 1 (triPoly_one _ _ _) (by simp)
  rw [pointSum_one] at h
  simp only [intervalIntegral.integral_const, smul_eq_mul, mul_one] at h
  have e : ((b.upper.x : ℝ) - b.lower.x) * (((b.upper.y : ℝ) - b.lower.y) * ((b.upper.z : ℝ) - b.lower.z)) =
      ((boxVolume b : ℚ) : ℝ) := by
    unfold boxVolume; push_cast; ring
  have e' : ((b.upper.x : ℝ) - b.lower.x) * ((b.upper.y : ℝ) - b.lower.y) * ((b.upper.z : ℝ) - b.lower.z) =
      ((boxVolume b : ℚ) : ℝ) := by
    unfold boxVolume; push_cast; ring
  rw [e, e'] at h
  have h' : ((abs ((pts.map fun q => q.weight).sum - boxVolume b) : ℚ) : ℝ) ≤
      ((4 / 10 ^ 12 * boxVolume b : ℚ) : ℝ) := by
    rw [Rat.cast_abs, Rat.cast_sub, Rat.cast_mul]
    refine h.trans (le_of_eq ?_)
    norm_num
  exact Rat.cast_le.mp h'

/-- With the tensor-product Gauss rules, the points of every full element represent the physical volume of its
cell, up to rounding of the tables. -/
theorem C69_full_cell {method : Method} (hm : isGGQ method = false) {order : V3 ℕ}
    (hx : reduction method ≤ order.x ∧ order.x < 10 + reduction method)
    (hy : reduction method ≤ order.y ∧ order.y < 10 + reduction method)
    (hz : reduction method ≤ order.z ∧ order.z < 10 + reduction method) {inp : VolumeInput ℚ}
    (hgauss : inp.usesGgq = false)
    (hpts : ∀ b, elementRule order method b.parametric = .ok (inp.gaussPts b)) {i : Nat}
    (hg : ProperBox (inp.bounds i).global) (hp : ProperBox (inp.bounds i).parametric)
    (hi : inp.classes[i]? = some .inside) :
    ∃ e, wantedElement inp i = some (.untrimmed, e) ∧
      |physicalWeight e - boxVolume (inp.bounds i).global| ≤ 4 / 10 ^ 12 * boxVolume (inp.bounds i).global := by
  refine ⟨⟨inp.bounds i, inp.gaussPts (inp.bounds i)⟩, by simp [wantedElement, hi, hgauss], ?_⟩
  have h := gauss_weights hm hx hy hz hp (hpts (inp.bounds i))
  have hJ := detJ_pos hg hp
  have hw : physicalWeight (⟨inp.bounds i, inp.gaussPts (inp.bounds i)⟩ : Elem ℚ) =
      detJ (inp.bounds i) * ((inp.gaussPts (inp.bounds i)).map fun q => q.weight).sum := by
    rw [← weight_physical]
    unfold weightSum
    rw [foldl_add_eq, zero_add]
  rw [hw, ← detJ_volume hg hp, ← mul_sub, abs_mul, abs_of_pos hJ]
  calc _ ≤ detJ (inp.bounds i) * (4 / 10 ^ 12 * boxVolume (inp.bounds i).parametric) :=
        mul_le_mul_of_nonneg_left h hJ.le
    _ = _ := by ring

/-- If every cell is full, the represented volume is the sum of the volumes of the cells, up to rounding of the
tables, under every schedule. -/
theorem C69_all_full {method : Method} (hm : isGGQ method = false) {order : V3 ℕ}
    (hx : reduction method ≤ order.x ∧ order.x < 10 + reduction method)
    (hy : reduction method ≤ order.y ∧ order.y < 10 + reduction method)
    (hz : reduction method ≤ order.z ∧ order.z < 10 + reduction method) {inp : VolumeInput ℚ}
    (hgauss : inp.usesGgq = false)
    (hpts : ∀ b, elementRule order method b.parametric = .ok (inp.gaussPts b))
    (hN : inp.classes.length < 2 ^ 31)
    (hbox : ∀ i < inp.classes.length, ProperBox (inp.bounds i).global ∧ ProperBox (inp.bounds i).parametric)
    (hin : ∀ i < inp.classes.length, inp.classes[i]? = some .inside) (debug : Bool) (sched : List ℕ)
    (hs : sched.Perm (scheduled inp)) :
    ∃ s info, computeVolume debug inp sched {} = some (s, info) ∧
      |info.represented - ((List.range inp.classes.length).map fun i => boxVolume (inp.bounds i).global).sum| ≤
        4 / 10 ^ 12 * ((List.range inp.classes.length).map fun i => boxVolume (inp.bounds i).global).sum := by
  obtain ⟨s, info, h1, h2, -⟩ := C69_represented_volume debug inp hN sched hs
  refine ⟨s, info, h1, ?_⟩
  rw [h2, cellSum]
  have key : ∀ l : List ℕ, (∀ i ∈ l, i < inp.classes.length) →
      |(l.map fun i => ((wantedElement inp i).map fun e => physicalWeight e.2).getD 0).sum -
        (l.map fun i => boxVolume (inp.bounds i).global).sum| ≤
        4 / 10 ^ 12 * (l.map fun i => boxVolume (inp.bounds i).global).sum := by
    intro l
    induction l with
    | nil => intro _; simp
    | cons i l ih =>
      intro hl
      have hi := hl i (List.mem_cons_self ..)
      obtain ⟨e, he, hv⟩ := C69_full_cell hm hx hy hz hgauss hpts (hbox i hi).1 (hbox i hi).2 (hin i hi)
      have ih' := ih fun j hj => hl j (List.mem_cons_of_mem _ hj)
      simp only [List.map_cons, List.sum_cons, he, Option.map_some, Option.getD_some]
      rw [mul_add]
      calc _ = |(physicalWeight e - boxVolume (inp.bounds i).global) +
              ((l.map fun i => ((wantedElement inp i).map fun e => physicalWeight e.2).getD 0).sum -
                (l.map fun i => boxVolume (inp.bounds i).global).sum)| := by congr 1; ring
        _ ≤ _ := abs_add_le _ _
        _ ≤ _ := add_le_add hv ih'
  exact key _ fun i hi => List.mem_range.mp hi

/-- The hypotheses can be met: three cells in a row, quadratic Gauss rules. -/
example : ∃ inp : VolumeInput ℚ, inp.classes.length = 3 ∧ inp.usesGgq = false ∧
    (∀ b, elementRule ⟨2, 2, 2⟩ .gauss b.parametric = .ok (inp.gaussPts b)) ∧
    (∀ i < 3, ProperBox (inp.bounds i).global ∧ ProperBox (inp.bounds i).parametric) ∧
    (∀ i < 3, inp.classes[i]? = some .inside) := by
  obtain ⟨r, hr⟩ : ∃ r, getGauss 2 .gauss = .ok r := ⟨_, rfl⟩
  refine ⟨⟨[.inside, .inside, .inside], fun i => ⟨⟨⟨i, 0, 0⟩, ⟨i + 1, 2, 2⟩⟩, ⟨⟨i / 3, 0, 0⟩, ⟨(i + 1) / 3, 1, 1⟩⟩⟩, fun _ => none,
    false, fun b => Quad.assembleIPs r r r b.parametric, fun _ _ => [], 12⟩, rfl, rfl, ?_, ?_, ?_⟩
  · intro b; simp only [elementRule, hr]
  · intro i _
    refine ⟨⟨by simp, by norm_num, by norm_num⟩, ⟨?_, by norm_num, by norm_num⟩⟩
    show (i : ℚ) / 3 < (i + 1) / 3
    linarith
  · intro i hi
    interval_cases i <;> rfl

/-! ## C71 Warning about geometry outside of the grid -/

open QuESo.IO QuESo.BRep
variable {K : Type} [Field K] [LinearOrder K] [IsStrictOrderedRing K]

/-- With output enabled, the warning is printed if and only if a corner of the surface lies outside of the box
of the grid. -/
theorem C71_warning {maxd : K} {m : Mesh K} {ts : List (Tri K)} (ht : m.visit = some ts) (hne : ts ≠ [])
    (hb : ∀ t ∈ ts, ∀ p, p = t.p1 ∨ p = t.p2 ∨ p = t.p3 → |p.x| ≤ maxd ∧ |p.y| ≤ maxd ∧ |p.z| ≤ maxd)
    (echo : Nat) (he : 0 < echo) (lower upper : V3 K) :
    ∃ lo up, MeshUtil.boundingBox maxd m = some (lo, up) ∧
      (warnsOutside echo lower upper ⟨lo, up⟩ = true ↔ ∃ t ∈ ts, ∃ p, (p = t.p1 ∨ p = t.p2 ∨ p = t.p3) ∧
        ¬ (lower.x ≤ p.x ∧ lower.y ≤ p.y ∧ lower.z ≤ p.z ∧ p.x ≤ upper.x ∧ p.y ≤ upper.y ∧ p.z ≤ upper.z)) := by
  obtain ⟨lo, up, h1, h2, h3⟩ := MeshUtil.C63_bounding_box ht hne hb
  refine ⟨lo, up, h1, ?_⟩
  have hw : warnsOutside echo lower upper ⟨lo, up⟩ = true ↔
      ¬ (lower.x ≤ lo.x ∧ lower.y ≤ lo.y ∧ lower.z ≤ lo.z ∧ up.x ≤ upper.x ∧ up.y ≤ upper.y ∧ up.z ≤ upper.z) := by
    simp only [warnsOutside, he, decide_true, Bool.true_and, Bool.or_eq_true, decide_eq_true_eq, gt_iff_lt]
    simp only [← not_le]
    tauto
  rw [hw]
  constructor
  · intro h
    by_contra hall
    apply h
    apply h3 lower upper
    intro t htm p hp
    by_contra hn
    exact hall ⟨t, htm, p, hp, hn⟩
  · rintro ⟨t, htm, p, hp, hn⟩ h
    obtain ⟨a1, a2, a3, a4, a5, a6⟩ := h2 t htm p hp
    obtain ⟨b1, b2, b3, b4, b5, b6⟩ := h
    exact hn ⟨b1.trans a1, b2.trans a2, b3.trans a3, a4.trans b4, a5.trans b5, a6.trans b6⟩

/-- The tetrahedron of the examples sticks out of the unit box, but not out of the box (0,0,0) – (2,1,3). -/
example : warnsOutside 1 (⟨0, 0, 0⟩ : V3 ℚ) ⟨1, 1, 1⟩ ⟨⟨0, 0, 0⟩, ⟨2, 1, 3⟩⟩ = true ∧
    warnsOutside 1 (⟨0, 0, 0⟩ : V3 ℚ) ⟨2, 1, 3⟩ ⟨⟨0, 0, 0⟩, ⟨2, 1, 3⟩⟩ = false := by decide +kernel

end QuESo.Props
