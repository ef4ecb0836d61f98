import Verif.Props.MomentFitting
import Verif.Props.SurfaceIntegration

/-!
# C60: the rule of a trimmed element and the solid that it stands for
-/
namespace QuESo.TrimmedRule
open Spec Mapping

theorem unitTetrahedron_one : unitTetrahedron (fun _ _ _ => 1) = 1 / 6 := by
  unfold unitTetrahedron
  have h : ∀ x : ℝ, ∫ y in (0 : ℝ)..(1 - x), ∫ _ in (0 : ℝ)..(1 - x - y), (1 : ℝ) = (1 - x) ^ 2 / 2 := by
    intro x
    simp only [intervalIntegral.integral_const, smul_eq_mul, mul_one, sub_zero]
    rw [intervalIntegral.integral_sub (by simp) (by simp)]
    simp
    ring
  simp only [h]
  have : ∀ x : ℝ, (1 - x) ^ 2 / 2 = 1 / 2 * (1 - x) ^ 2 := fun x => by ring
  simp only [this]
  rw [intervalIntegral.integral_const_mul, intervalIntegral.integral_comp_sub_left (fun x => x ^ 2)]
  simp
  norm_num

/-- The integral of one is the volume. -/
theorem solidIntegral_one (ts : List (Tri ℝ)) : solidIntegral ⟨0, 0, 0⟩ (fun _ => 1) ts = volume6 ts / 6 := by
  unfold solidIntegral volume6
  simp only [unitTetrahedron_one]
  induction ts with
  | nil => simp
  | cons t ts ih =>
    rw [List.map_cons, List.sum_cons, ih, List.map_cons, List.sum_cons]
    simp only [tetrahedronVolume6, triangleArea2]
    ring

/-- From the moments of the boundary to the integrals over the solid. -/
theorem solid_of_accuracy {norm3 : V3 ℝ → ℝ} (hn3 : IsNorm3 norm3) {zt : ℝ} (hzt : 0 ≤ zt) {o : V3 Nat} {cell : Bounds ℝ}
    (hg : ProperBox cell.global)
    {closed : Mesh ℝ} {ts : List (Tri ℝ)} (hv : closed.visit = some ts) (hcl : SealedSurface ts)
    (hin : ∀ t ∈ ts, ∀ v ∈ [t.p1, t.p2, t.p3], InBox cell.global v) (ha : ∀ t ∈ ts, zt < norm3 (triangleArea2 t.p1 t.p2 t.p3))
    {m : ℝ} (hmm : (|cell.global.lower.x| ≤ m ∧ |cell.global.lower.y| ≤ m ∧ |cell.global.lower.z| ≤ m) ∧
      |cell.global.upper.x| ≤ m ∧ |cell.global.upper.y| ≤ m ∧ |cell.global.upper.z| ≤ m)
    {bnd : List (BndPoint ℝ)} (hb : TriRule.boundaryIps norm3 zt closed false cell = some bnd) {out : List (VolPoint ℝ)} (z : V3 ℝ)
    {E : ℝ} (w3 : ∀ a b c, a ≤ o.x → b ≤ o.y → c ≤ o.z →
      |ruleMoment cell ⟨a, b, c⟩ out - boundaryMoment cell.global bnd ⟨a, b, c⟩| ≤ E) :
    ∀ a b c, a ≤ o.x → b ≤ o.y → c ≤ o.z → a + b + c ≤ 5 →
      |ruleMoment cell ⟨a, b, c⟩ out - solidIntegral z (legendre cell.global ⟨a, b, c⟩) ts| ≤
        E + 1 / 10 ^ 14 * m * totalArea norm3 ts := by
  intro a b c ha' hb' hc' habc
  obtain ⟨bnd', hb2, hmom⟩ := TriRule.C61_moments hn3 hzt cell hg hv hcl hin ha hmm o z
  rw [hb] at hb2
  cases hb2
  obtain ⟨v, hv1, hv2⟩ := hmom a b c ha' hb' hc' habc
  rw [(Trimmed.C61_entries cell.global o bnd).2 a b c ha' hb' hc'] at hv1
  cases hv1
  have := w3 a b c ha' hb' hc'
  rw [abs_le] at *
  constructor <;> linarith [this.1, this.2, hv2.1, hv2.2]

/-- The case of order zero is the volume. -/
theorem volume_of_solid {cell : Bounds ℝ} (hg : ProperBox cell.global) (hp : ProperBox cell.parametric) {ts : List (Tri ℝ)}
    {out : List (VolPoint ℝ)} {E : ℝ}
    (this : |ruleMoment cell ⟨0, 0, 0⟩ out - solidIntegral ⟨0, 0, 0⟩ (legendre cell.global ⟨0, 0, 0⟩) ts| ≤ E) :
    |(out.map VolPoint.weight).sum * (boxVolume cell.global / boxVolume cell.parametric) - volume6 ts / 6| ≤ E := by
  have hl : legendre cell.global ⟨0, 0, 0⟩ = fun _ => 1 := by
    funext p; simp [legendre, Poly.fx]
  have hvol : 0 < boxVolume cell.parametric :=
    mul_pos (mul_pos (sub_pos.2 hp.1) (sub_pos.2 hp.2.1)) (sub_pos.2 hp.2.2)
  have hJe : boxVolume cell.global / boxVolume cell.parametric = detJ cell := by
    rw [div_eq_iff hvol.ne']
    exact (C34_integration_points hg hp ⟨cell.parametric.lower, 0⟩).2.2.2.2.symm
  have hr : ruleMoment cell ⟨0, 0, 0⟩ out = (out.map VolPoint.weight).sum * (boxVolume cell.global / boxVolume cell.parametric) := by
    unfold ruleMoment
    rw [hl, hJe, ← List.sum_map_mul_right]
    simp [ipToGlobal]
  rw [hr, hl, solidIntegral_one] at this
  exact this

/-- **C60** What the rule of a trimmed element integrates.  Let the closed mesh of its domain lie in its cell and have triangles
with (twice) an area above the zero tolerance, and let the coordinates of the cell be at most `m`.  If the rule has points,
every product of Legendre polynomials whose orders are at most those of the element and add up to at most five is integrated
over the enclosed solid with an error of at most the reported relative error (at most 0.01) of the norm `N` of all moments, a
multiple of the zero tolerance for the points left out, and the digits of the table of the surface rule. -/
theorem C60_solid {nnls : List (List ℝ) → List ℝ → List ℝ × ℝ} (hn : ReportsResidual nnls) (hw : NoNegative nnls)
    {norm : List ℝ → ℝ} (hN : IsNorm norm) {norm3 : V3 ℝ → ℝ} (hn3 : IsNorm3 norm3)
    {sort : List (VolPoint ℝ) → List (VolPoint ℝ)} (hs : SortsByWeight sort)
    {zt mind maxd target : ℝ} (hzt : 0 ≤ zt) (ht : mind < target) (hm : target < maxd) {o : V3 Nat} {e : Trimmed.Elem ℝ}
    (hg : ProperBox e.cell.global) (hp : ProperBox e.cell.parametric) (hx : ProperBox e.active.global)
    (hu : ProperBox e.active.parametric) (hsub : SubBox e.active.parametric e.cell.parametric)
    (r1 : NodesInUnit e.rule.x) (r2 : NodesInUnit e.rule.y) (r3 : NodesInUnit e.rule.z)
    {closed : Mesh ℝ} {ts : List (Tri ℝ)} (hv : closed.visit = some ts) (hcl : SealedSurface ts)
    (hin : ∀ t ∈ ts, ∀ v ∈ [t.p1, t.p2, t.p3], InBox e.cell.global v) (ha : ∀ t ∈ ts, zt < norm3 (triangleArea2 t.p1 t.p2 t.p3))
    {m : ℝ} (hmm : (|e.cell.global.lower.x| ≤ m ∧ |e.cell.global.lower.y| ≤ m ∧ |e.cell.global.lower.z| ≤ m) ∧
      |e.cell.global.upper.x| ≤ m ∧ |e.cell.global.upper.y| ≤ m ∧ |e.cell.global.upper.z| ≤ m)
    {bnd : List (BndPoint ℝ)} (hb : TriRule.boundaryIps norm3 zt closed false e.cell = some bnd) {N : ℝ} (hN0 : 0 < N)
    (hN2 : N ^ 2 = momentSquares o (boundaryMoment e.cell.global bnd)) {res : ℝ} {out : List (VolPoint ℝ)}
    (h : Trimmed.assembleIPs nnls norm sort zt mind maxd target o e bnd none = .ok (res, out)) (hout : out ≠ []) (z : V3 ℝ) :
    0 ≤ res ∧ res ≤ 1 / 100 ∧ ∀ a b c, a ≤ o.x → b ≤ o.y → c ≤ o.z → a + b + c ≤ 5 →
      |ruleMoment e.cell ⟨a, b, c⟩ out - solidIntegral z (legendre e.cell.global ⟨a, b, c⟩) ts| ≤
        res * N + numMoments o * (zt * (boxVolume e.cell.global / boxVolume e.cell.parametric)) +
          1 / 10 ^ 14 * m * totalArea norm3 ts := by
  obtain ⟨w1, w2, w3⟩ := Trimmed.C60_accuracy hn hw hN hs hzt ht hm hg hp hx hu hsub r1 r2 r3 hN0 hN2 h hout
  exact ⟨w1, w2, solid_of_accuracy hn3 hzt hg hv hcl hin ha hmm hb z w3⟩

/-- **C60** The volume: the weights of the rule in physical space (parametric weights times the ratio of the volumes of the cell) add up to the signed volume of
the closed mesh with the same error. -/
theorem C60_volume {nnls : List (List ℝ) → List ℝ → List ℝ × ℝ} (hn : ReportsResidual nnls) (hw : NoNegative nnls)
    {norm : List ℝ → ℝ} (hN : IsNorm norm) {norm3 : V3 ℝ → ℝ} (hn3 : IsNorm3 norm3)
    {sort : List (VolPoint ℝ) → List (VolPoint ℝ)} (hs : SortsByWeight sort)
    {zt mind maxd target : ℝ} (hzt : 0 ≤ zt) (ht : mind < target) (hm : target < maxd) {o : V3 Nat} {e : Trimmed.Elem ℝ}
    (hg : ProperBox e.cell.global) (hp : ProperBox e.cell.parametric) (hx : ProperBox e.active.global)
    (hu : ProperBox e.active.parametric) (hsub : SubBox e.active.parametric e.cell.parametric)
    (r1 : NodesInUnit e.rule.x) (r2 : NodesInUnit e.rule.y) (r3 : NodesInUnit e.rule.z)
    {closed : Mesh ℝ} {ts : List (Tri ℝ)} (hv : closed.visit = some ts) (hcl : SealedSurface ts)
    (hin : ∀ t ∈ ts, ∀ v ∈ [t.p1, t.p2, t.p3], InBox e.cell.global v) (ha : ∀ t ∈ ts, zt < norm3 (triangleArea2 t.p1 t.p2 t.p3))
    {m : ℝ} (hmm : (|e.cell.global.lower.x| ≤ m ∧ |e.cell.global.lower.y| ≤ m ∧ |e.cell.global.lower.z| ≤ m) ∧
      |e.cell.global.upper.x| ≤ m ∧ |e.cell.global.upper.y| ≤ m ∧ |e.cell.global.upper.z| ≤ m)
    {bnd : List (BndPoint ℝ)} (hb : TriRule.boundaryIps norm3 zt closed false e.cell = some bnd) {N : ℝ} (hN0 : 0 < N)
    (hN2 : N ^ 2 = momentSquares o (boundaryMoment e.cell.global bnd)) {res : ℝ} {out : List (VolPoint ℝ)}
    (h : Trimmed.assembleIPs nnls norm sort zt mind maxd target o e bnd none = .ok (res, out)) (hout : out ≠ []) :
    |(out.map VolPoint.weight).sum * (boxVolume e.cell.global / boxVolume e.cell.parametric) - volume6 ts / 6| ≤
      res * N + numMoments o * (zt * (boxVolume e.cell.global / boxVolume e.cell.parametric)) +
        1 / 10 ^ 14 * m * totalArea norm3 ts := by
  have := (C60_solid hn hw hN hn3 hs hzt ht hm hg hp hx hu hsub r1 r2 r3 hv hcl hin ha hmm hb hN0 hN2 h hout ⟨0, 0, 0⟩).2.2 0 0 0
    (Nat.zero_le _) (Nat.zero_le _) (Nat.zero_le _) (by norm_num)
  exact volume_of_solid hg hp this

/-- The unit cell with the mesh of a box as boundary. -/
theorem unit_box_boundary {norm3 : V3 ℝ → ℝ} (hn3 : IsNorm3 norm3) :
    ∃ ts bnd, (MeshUtil.makeMeshBox (⟨0, 0, 0⟩ : V3 ℝ) ⟨1, 1, 1⟩).visit = some ts ∧ SealedSurface ts ∧
      (∀ t ∈ ts, ∀ v ∈ [t.p1, t.p2, t.p3], InBox Trimmed.elemR.cell.global v) ∧
      (∀ t ∈ ts, 0 < norm3 (triangleArea2 t.p1 t.p2 t.p3)) ∧
      TriRule.boundaryIps norm3 0 (MeshUtil.makeMeshBox ⟨0, 0, 0⟩ ⟨1, 1, 1⟩) false Trimmed.elemR.cell = some bnd ∧
      0 < boundaryMoment Trimmed.elemR.cell.global bnd ⟨0, 0, 0⟩ := by
  obtain ⟨ts, -, h2, -, -, -, -, h7, -, h9, h10, -⟩ := MeshUtil.C37_box hn3 (l := ⟨0, 0, 0⟩) (u := ⟨1, 1, 1⟩) zero_le_one zero_le_one zero_le_one
  have hin : ∀ t ∈ ts, ∀ v ∈ [t.p1, t.p2, t.p3], InBox Trimmed.elemR.cell.global v := by
    intro t ht v hv
    have : OnSurface ts v := by
      refine ⟨t, ht, ?_⟩
      simp only [List.mem_cons, List.not_mem_nil, or_false] at hv
      rcases hv with rfl | rfl | rfl
      · exact ⟨1, 0, 0, by simp⟩
      · exact ⟨0, 1, 0, by simp⟩
      · exact ⟨0, 0, 1, by simp⟩
    exact ((h9 v).1 this).1
  have hcell : ProperBox Trimmed.elemR.cell.global := by simp [Trimmed.elemR, ProperBox]
  have hpos : ∀ t ∈ ts, 0 < norm3 (triangleArea2 t.p1 t.p2 t.p3) := by
    rw [(MeshUtil.makeMeshBox_has _ _).2] at h2
    cases h2
    intro t ht
    simp only [MeshUtil.boxTris, List.mem_cons, List.not_mem_nil, or_false] at ht
    have key : ∀ v : V3 ℝ, 0 < v.x ^ 2 + v.y ^ 2 + v.z ^ 2 → 0 < norm3 v := by
      intro v hv
      refine lt_of_le_of_ne (hn3 v).1 fun h0 => ?_
      rw [← (hn3 v).2, ← h0] at hv
      simp at hv
    rcases ht with rfl | rfl | rfl | rfl | rfl | rfl | rfl | rfl | rfl | rfl | rfl | rfl <;>
      (apply key; norm_num [triangleArea2])
  obtain ⟨bnd, hb, hv⟩ := TriRule.C61_moments hn3 (le_refl (0 : ℝ)) Trimmed.elemR.cell hcell h2 (MeshUtil.sealed_of_closed h7) hin hpos (m := 1)
    (by simp [Trimmed.elemR]) ⟨0, 0, 0⟩ ⟨0, 0, 0⟩
  obtain ⟨v, v1, v2⟩ := hv 0 0 0 le_rfl le_rfl le_rfl (by norm_num)
  rw [(Trimmed.C61_entries Trimmed.elemR.cell.global ⟨0, 0, 0⟩ bnd).2 0 0 0 le_rfl le_rfl le_rfl] at v1
  cases v1
  have hl : legendre Trimmed.elemR.cell.global ⟨0, 0, 0⟩ = fun _ => 1 := by
    funext p; simp [legendre, Poly.fx]
  have harea : totalArea norm3 ts ≤ 100 := by
    rw [(MeshUtil.makeMeshBox_has _ _).2] at h2
    cases h2
    have key : ∀ v : V3 ℝ, v.x ^ 2 + v.y ^ 2 + v.z ^ 2 ≤ 1 → norm3 v ≤ 1 := by
      intro v hv
      have := (hn3 v).2
      nlinarith [(hn3 v).1]
    unfold totalArea
    simp only [MeshUtil.boxTris, List.map_cons, List.map_nil, List.sum_cons, List.sum_nil, triangleArea2]
    have k1 := key ⟨1, 0, 0⟩ (by norm_num)
    have k2 := key ⟨0, 1, 0⟩ (by norm_num)
    have k3 := key ⟨0, 0, 1⟩ (by norm_num)
    have k4 := key ⟨-1, 0, 0⟩ (by norm_num)
    have k5 := key ⟨0, -1, 0⟩ (by norm_num)
    have k6 := key ⟨0, 0, -1⟩ (by norm_num)
    norm_num
    linarith
  rw [hl, solidIntegral_one, h10] at v2
  have hpos2 : 0 < boundaryMoment Trimmed.elemR.cell.global bnd ⟨0, 0, 0⟩ := by
    rw [abs_le] at v2
    norm_num at v2
    linarith [v2.1]
  exact ⟨ts, bnd, h2, MeshUtil.sealed_of_closed h7, hin, hpos, hb, hpos2⟩

/-- Beside `C60_solid` and `C60_volume`: the unit cell with the mesh of a box as boundary meets all hypotheses, with a solver that
is exact here, and the rule has a point. -/
example {norm3 : V3 ℝ → ℝ} (hn3 : IsNorm3 norm3) :
    ∃ ts bnd res out N, (MeshUtil.makeMeshBox (⟨0, 0, 0⟩ : V3 ℝ) ⟨1, 1, 1⟩).visit = some ts ∧ SealedSurface ts ∧
      (∀ t ∈ ts, ∀ v ∈ [t.p1, t.p2, t.p3], InBox Trimmed.elemR.cell.global v) ∧
      (∀ t ∈ ts, 0 < norm3 (triangleArea2 t.p1 t.p2 t.p3)) ∧
      TriRule.boundaryIps norm3 0 (MeshUtil.makeMeshBox ⟨0, 0, 0⟩ ⟨1, 1, 1⟩) false Trimmed.elemR.cell = some bnd ∧ 0 < N ∧
      N ^ 2 = momentSquares ⟨0, 0, 0⟩ (boundaryMoment Trimmed.elemR.cell.global bnd) ∧
      Trimmed.assembleIPs Trimmed.solveEqual (fun v => Real.sqrt ((v.map fun x => x ^ 2).sum))
        (fun l => l.mergeSort fun a b => b.weight ≤ a.weight) 0 0 2 1 ⟨0, 0, 0⟩ Trimmed.elemR bnd none = .ok (res, out) ∧ out ≠ [] := by
  obtain ⟨ts, bnd, a1, a2, a3, a4, a5, a6⟩ := unit_box_boundary hn3
  obtain ⟨res, out, q1, q2, q3⟩ := Trimmed.elemR_rule bnd a6
  exact ⟨ts, bnd, res, out, _, a1, a2, a3, a4, a5, a6, q3, q1, q2⟩

end QuESo.TrimmedRule
