import Verif.Proofs.Divergence
import Verif.Proofs.BoxMesh

/-!
# The flux through the boundary of a box
-/
namespace QuESo.Spec
open MeasureTheory MeshUtil

/-- A square is two triangles. -/
theorem square_split {k : ℝ → ℝ → ℝ} (hk : Continuous fun p : ℝ × ℝ => k p.1 p.2) :
    (∫ x in (0 : ℝ)..1, ∫ y in (0 : ℝ)..1, k x y) =
      (unitTriangle fun r s => k (1 - r) s) + unitTriangle fun r s => k r (r + s) := by
  have hc : ∀ x, Continuous (k x) := fun x => hk.comp (Continuous.prodMk_right x)
  have h1 : ∀ x : ℝ, (∫ y in (0 : ℝ)..1, k x y) = (∫ y in (0 : ℝ)..x, k x y) + ∫ s in (0 : ℝ)..(1 - x), k x (x + s) := by
    intro x
    rw [intervalIntegral.integral_comp_add_left (fun y => k x y) x]
    simp only [add_zero, add_sub_cancel]
    exact (intervalIntegral.integral_add_adjacent_intervals ((hc x).intervalIntegrable _ _) ((hc x).intervalIntegrable _ _)).symm
  simp only [h1]
  rw [intervalIntegral.integral_add]
  · congr 1
    unfold unitTriangle
    have := intervalIntegral.integral_comp_sub_left (fun x => ∫ y in (0 : ℝ)..x, k x y) (a := 0) (b := 1) 1
    simp only [sub_zero, sub_self] at this
    rw [this]
  · apply Continuous.intervalIntegrable
    exact intervalIntegral.continuous_parametric_intervalIntegral_of_continuous (f := fun x y => k x y) hk continuous_id
  · apply Continuous.intervalIntegrable
    have : Continuous fun p : ℝ × ℝ => k p.1 (p.1 + p.2) := hk.comp (f := fun p : ℝ × ℝ => (p.1, p.1 + p.2)) (by fun_prop)
    exact intervalIntegral.continuous_parametric_intervalIntegral_of_continuous (f := fun x y => k x (x + y)) this (by fun_prop)

/-- A rectangle is two triangles. -/
theorem rectangle_split {k : ℝ → ℝ → ℝ} (hk : Continuous fun p : ℝ × ℝ => k p.1 p.2) (a b c d : ℝ) :
    (∫ x in a..b, ∫ y in c..d, k x y) = (b - a) * (d - c) *
      ((unitTriangle fun r s => k (a + (b - a) * (1 - r)) (c + (d - c) * s)) +
        unitTriangle fun r s => k (a + (b - a) * r) (c + (d - c) * (r + s))) := by
  have hk' : Continuous fun p : ℝ × ℝ => k (a + (b - a) * p.1) (c + (d - c) * p.2) :=
    hk.comp (f := fun p : ℝ × ℝ => (a + (b - a) * p.1, c + (d - c) * p.2)) (by fun_prop)
  have := square_split (k := fun x y => k (a + (b - a) * x) (c + (d - c) * y)) hk'
  rw [← this]
  have h1 := intervalIntegral.smul_integral_comp_add_mul (a := 0) (b := 1) (fun x => ∫ y in c..d, k x y) (b - a) a
  have h2 : ∀ x, (∫ y in c..d, k x y) = (d - c) * ∫ y in (0 : ℝ)..1, k x (c + (d - c) * y) := by
    intro x
    have := intervalIntegral.smul_integral_comp_add_mul (a := 0) (b := 1) (fun y => k x y) (d - c) c
    simp only [mul_zero, add_zero, mul_one, add_sub_cancel, smul_eq_mul] at this
    exact this.symm
  simp only [mul_zero, add_zero, mul_one, add_sub_cancel, smul_eq_mul] at h1
  rw [← h1]
  simp only [h2]
  rw [intervalIntegral.integral_const_mul, mul_assoc]

/-- The flux of an upright field out of a box. -/
theorem box_flux {G : V3 ℝ → ℝ} (hG : Smooth G) (l u : V3 ℝ) :
    ((boxTris l u).map (flux fun p => ⟨0, 0, G p⟩)).sum =
      ∫ x in l.x..u.x, ∫ y in l.y..u.y, (G ⟨x, y, u.z⟩ - G ⟨x, y, l.z⟩) := by
  have hGc := hG.continuous
  have hk : ∀ z : ℝ, Continuous fun p : ℝ × ℝ => G ⟨p.1, p.2, z⟩ := fun z =>
    hGc.comp (f := fun p : ℝ × ℝ => (p.1, p.2, z)) (by fun_prop)
  have hin : ∀ (z x : ℝ), IntervalIntegrable (fun y => G ⟨x, y, z⟩) volume l.y u.y := fun z x =>
    ((hk z).comp (Continuous.prodMk_right x)).intervalIntegrable _ _
  have hout : ∀ z : ℝ, IntervalIntegrable (fun x => ∫ y in l.y..u.y, G ⟨x, y, z⟩) volume l.x u.x := fun z =>
    (intervalIntegral.continuous_parametric_intervalIntegral_of_continuous' (f := fun x y => G ⟨x, y, z⟩) (hk z) _ _).intervalIntegrable _ _
  have hs : (∫ x in l.x..u.x, ∫ y in l.y..u.y, (G ⟨x, y, u.z⟩ - G ⟨x, y, l.z⟩)) =
      (∫ x in l.x..u.x, ∫ y in l.y..u.y, G ⟨x, y, u.z⟩) - ∫ x in l.x..u.x, ∫ y in l.y..u.y, G ⟨x, y, l.z⟩ := by
    rw [← intervalIntegral.integral_sub (hout _) (hout _)]
    congr 1; ext x
    rw [← intervalIntegral.integral_sub (hin _ _) (hin _ _)]
  rw [hs, rectangle_split (hk u.z), rectangle_split (hk l.z)]
  have hK : ∀ z : ℝ, Continuous fun p : ℝ × ℝ => G ⟨l.x + (u.x - l.x) * p.1, l.y + (u.y - l.y) * p.2, z⟩ := fun z =>
    (hk z).comp (f := fun p : ℝ × ℝ => (l.x + (u.x - l.x) * p.1, l.y + (u.y - l.y) * p.2)) (by fun_prop)
  -- the four triangles that count
  have e1 : (unitTriangle fun r s => G ⟨l.x + (u.x - l.x) * (r + s), l.y + (u.y - l.y) * s, u.z⟩) =
      unitTriangle fun r s => G ⟨l.x + (u.x - l.x) * (1 - r), l.y + (u.y - l.y) * s, u.z⟩ := by
    have := (tri_rotate (h := fun a _ c => G ⟨l.x + (u.x - l.x) * (1 - a), l.y + (u.y - l.y) * c, u.z⟩)
      ((hK u.z).comp (f := fun p : ℝ × ℝ × ℝ => (1 - p.1, p.2.2)) (by fun_prop))).2
    rw [this]
    apply tri_congr
    intro r s
    congr 2; ring
  have e2 : (unitTriangle fun r s => G ⟨l.x + (u.x - l.x) * s, l.y + (u.y - l.y) * (r + s), l.z⟩) =
      unitTriangle fun r s => G ⟨l.x + (u.x - l.x) * r, l.y + (u.y - l.y) * (r + s), l.z⟩ := by
    rw [tri_sym (g := fun r s => G ⟨l.x + (u.x - l.x) * s, l.y + (u.y - l.y) * (r + s), l.z⟩)
      ((hK l.z).comp (f := fun p : ℝ × ℝ => (p.2, p.1 + p.2)) (by fun_prop))]
    apply tri_congr
    intro r s
    congr 2; ring
  have side : ∀ t : Tri ℝ, (triangleArea2 t.p1 t.p2 t.p3).z = 0 → flux (fun p => ⟨0, 0, G p⟩) t = 0 := by
    intro t ht
    simp only [flux, ht, zero_mul, mul_zero, add_zero]
    simp [unitTriangle]
  have face : ∀ (t : Tri ℝ) (g : ℝ → ℝ → ℝ) (a : ℝ), (triangleArea2 t.p1 t.p2 t.p3).z = a →
      (∀ r s, G (trianglePoint t.p1 t.p2 t.p3 r s) = g r s) → flux (fun p => ⟨0, 0, G p⟩) t = a * unitTriangle g := by
    intro t g a ha hg
    rw [← tri_smul]
    unfold flux
    dsimp only
    rw [ha]
    apply tri_congr
    intro r s
    rw [hg]; ring
  simp only [boxTris, List.map_cons, List.map_nil, List.sum_cons, List.sum_nil]
  rw [side _ (by simp [triangleArea2]), side _ (by simp [triangleArea2]), side _ (by simp [triangleArea2]), side _ (by simp [triangleArea2]),
    side _ (by simp [triangleArea2]), side _ (by simp [triangleArea2]), side _ (by simp [triangleArea2]), side _ (by simp [triangleArea2])]
  rw [face _ (fun r s => G ⟨l.x + (u.x - l.x) * (1 - r), l.y + (u.y - l.y) * s, l.z⟩) (-((u.x - l.x) * (u.y - l.y)))
      (by simp [triangleArea2]; try ring) (by intro r s; simp only [trianglePoint]; congr 2 <;> ring),
    face _ (fun r s => G ⟨l.x + (u.x - l.x) * s, l.y + (u.y - l.y) * (r + s), l.z⟩) (-((u.x - l.x) * (u.y - l.y)))
      (by simp [triangleArea2]; try ring) (by intro r s; simp only [trianglePoint]; congr 2 <;> ring),
    face _ (fun r s => G ⟨l.x + (u.x - l.x) * (r + s), l.y + (u.y - l.y) * s, u.z⟩) ((u.x - l.x) * (u.y - l.y))
      (by simp [triangleArea2]; try ring) (by intro r s; simp only [trianglePoint]; congr 2 <;> ring),
    face _ (fun r s => G ⟨l.x + (u.x - l.x) * r, l.y + (u.y - l.y) * (r + s), u.z⟩) ((u.x - l.x) * (u.y - l.y))
      (by simp [triangleArea2]; try ring) (by intro r s; simp only [trianglePoint]; congr 2 <;> ring), e1, e2]
  ring

/-- For the mesh of a box the integral over the enclosed solid is the integral over the box, if the function has an antiderivative in
the direction of `z`. -/
theorem box_solid {G g : V3 ℝ → ℝ} (hG : Smooth G) (hd : ∀ p : V3 ℝ, HasDerivAt (fun t => G ⟨p.x, p.y, t⟩) (g p) p.z)
    (o l u : V3 ℝ) (hcl : SealedSurface (boxTris l u)) : solidIntegral o g (boxTris l u) = boxIntegral ⟨l, u⟩ g := by
  have hF : SmoothField fun p => (⟨0, 0, G p⟩ : V3 ℝ) := ⟨contDiff_const, contDiff_const, hG⟩
  have hg : divergence (fun p => (⟨0, 0, G p⟩ : V3 ℝ)) = g := by
    ext p
    simp [divergence, (hd p).deriv]
  have := closed_divergence hF o hcl
  rw [hg] at this
  rw [← this, box_flux hG]
  unfold boxIntegral
  have hgc : Continuous fun q : ℝ × ℝ × ℝ => g ⟨q.1, q.2.1, q.2.2⟩ := by
    have : (fun q : ℝ × ℝ × ℝ => g ⟨q.1, q.2.1, q.2.2⟩) = fun q : ℝ × ℝ × ℝ => along G ⟨q.1, q.2.1, q.2.2⟩ ⟨0, 0, 1⟩ := by
      ext q
      rw [← along_z hG, (hd _).deriv]
    rw [this]
    exact continuous_along hG _
  congr 1; ext x; congr 1; ext y
  rw [intervalIntegral.integral_eq_sub_of_hasDerivAt (f := fun z => G ⟨x, y, z⟩) (fun z _ => hd ⟨x, y, z⟩)]
  exact (hgc.comp (f := fun z : ℝ => (x, y, z)) (by fun_prop)).intervalIntegrable _ _

end QuESo.Spec
