import Verif.Proofs.FluxPoly
import Verif.Proofs.BoxFlux
import Verif.Props.MeshUtilities

/-!
# C61, C76: integration over triangles and closed surfaces
-/
namespace QuESo.TriRule
open Spec MeshUtil Mapping

/-! ### Sums over the points of a rule -/

theorem ipGlobal_pos (norm : V3 ℝ → ℝ) (zt : ℝ) (t : Tri ℝ) (q : ℚ × ℚ × ℚ) :
    (ipGlobal norm zt ⟨t.p1, t.p2, t.p3⟩ q).pos = trianglePoint t.p1 t.p2 t.p3 q.1 q.2.1 := by
  simp only [ipGlobal, trianglePoint, shapeValue]
  congr 1 <;> ring

theorem ipGlobal_weight (norm : V3 ℝ → ℝ) (zt : ℝ) (t : Tri ℝ) (q : ℚ × ℚ × ℚ) :
    (ipGlobal norm zt ⟨t.p1, t.p2, t.p3⟩ q).weight = norm (triangleArea2 t.p1 t.p2 t.p3) * q.2.2 := by
  simp only [ipGlobal, area_eq]
  ring

theorem sum_points (norm : V3 ℝ → ℝ) (zt : ℝ) (t : Tri ℝ) (qs : List (ℚ × ℚ × ℚ)) (f : V3 ℝ → ℝ) :
    ((qs.map (ipGlobal norm zt ⟨t.p1, t.p2, t.p3⟩)).map fun q => q.weight * f q.pos).sum =
      norm (triangleArea2 t.p1 t.p2 t.p3) * ruleSum qs fun r s => f (trianglePoint t.p1 t.p2 t.p3 r s) := by
  unfold ruleSum
  rw [List.map_map, ← List.sum_map_mul_left]
  congr 1
  apply List.map_congr_left
  intro q _
  simp only [Function.comp, ipGlobal_pos, ipGlobal_weight]
  ring

theorem pointsOf_error {method : Nat} (hm : method ≤ 4) : ∃ qs, pointsOf method = some qs ∧
    ∀ {m : ℝ} {g : ℝ → ℝ → ℝ}, PolyOn (exactDegree method) m g → |ruleSum qs g - unitTriangle g| ≤ ruleTolerance method * m := by
  interval_cases method
  · exact ⟨points1, rfl, fun hg => by simpa [ruleTolerance] using rule_error points1_error hg⟩
  · exact ⟨points2, rfl, fun hg => by simpa [ruleTolerance] using rule_error points2_error hg⟩
  · exact ⟨points3, rfl, fun hg => by have := rule_error points3_error hg; push_cast at this; simpa [ruleTolerance] using this⟩
  · exact ⟨points4, rfl, fun hg => by have := rule_error points4_error hg; push_cast at this; simpa [ruleTolerance] using this⟩
  · exact ⟨points4, rfl, fun hg => by have := rule_error points4_error hg; push_cast at this; simpa [ruleTolerance] using this⟩

theorem polyOn_polynomial {t : Tri ℝ} {m : ℝ} (ht : CornersBelow m t) {d : Nat} {l : List (ℝ × V3 Nat)}
    (hl : ∀ q ∈ l, q.2.x + q.2.y + q.2.z ≤ d) :
    PolyOn d (l.map fun q => |q.1| * (5 * m) ^ (q.2.x + q.2.y + q.2.z)).sum
      fun r s => polynomial3 l (trianglePoint t.p1 t.p2 t.p3 r s) := by
  have h1 := ht t.p1 (by simp)
  have h2 := ht t.p2 (by simp)
  have h3 := ht t.p3 (by simp)
  have lx := PolyOn.linear h1.1 h2.1 h3.1
  have ly := PolyOn.linear h1.2.1 h2.2.1 h3.2.1
  have lz := PolyOn.linear h1.2.2 h2.2.2 h3.2.2
  induction l with
  | nil => simpa [polynomial3] using PolyOn.zero d
  | cons q l ih =>
    have hq := hl q List.mem_cons_self
    have hp := ((((lx.pow q.2.x).mul (ly.pow q.2.y)).mul (lz.pow q.2.z)).smul q.1).mono (d' := d)
      (m' := |q.1| * (5 * m) ^ (q.2.x + q.2.y + q.2.z)) (by omega) (by rw [pow_add, pow_add])
    have := hp.add (ih fun q hq => hl q (List.mem_cons_of_mem _ hq))
    simp only [List.map_cons, List.sum_cons]
    refine this.congr fun r s => ?_
    simp only [polynomial3, List.map_cons, List.sum_cons, trianglePoint]

/-! ### C76 -/

/-- C76: the rules with 1 and 3 points integrate all polynomials of degrees 1 and 2 over every triangle exactly; the rules with 6 and
12 points integrate polynomials of degrees 4 and 6 up to an error of the digits of the tables, relative to the size of the triangle, its
distance from the origin and the coefficients. -/
theorem C76_exact (norm : V3 ℝ → ℝ) (hn : IsNorm3 norm) (zt : ℝ) {t : Tri ℝ} {m : ℝ} (ht : CornersBelow m t) {method : Nat} (hm : method ≤ 4)
    {l : List (ℝ × V3 Nat)} (hl : ∀ q ∈ l, q.2.x + q.2.y + q.2.z ≤ exactDegree method) :
    ∃ ps, ipsGlobal norm zt ⟨t.p1, t.p2, t.p3⟩ method = some ps ∧
      |(ps.map fun q => q.weight * polynomial3 l q.pos).sum - surfaceIntegral norm (polynomial3 l) t| ≤
        ruleTolerance method * norm (triangleArea2 t.p1 t.p2 t.p3) * (l.map fun q => |q.1| * (5 * m) ^ (q.2.x + q.2.y + q.2.z)).sum := by
  obtain ⟨qs, hq, he⟩ := pointsOf_error hm
  refine ⟨qs.map (ipGlobal norm zt ⟨t.p1, t.p2, t.p3⟩), by unfold ipsGlobal; rw [hq], ?_⟩
  rw [sum_points]
  unfold surfaceIntegral
  rw [← mul_sub, abs_mul, abs_of_nonneg (hn _).1]
  have := mul_le_mul_of_nonneg_left (he (polyOn_polynomial ht hl)) (hn (triangleArea2 t.p1 t.p2 t.p3)).1
  linarith

/-- The number of points of the rules. -/
def numberOfPoints : Nat → Nat
  | 0 => 1
  | 1 => 3
  | 2 => 6
  | _ => 12

theorem table_inside {method : Nat} (hm : method ≤ 4) {qs : List (ℚ × ℚ × ℚ)} (h : pointsOf method = some qs) :
    qs.length = numberOfPoints method ∧ ∀ q ∈ qs, 0 < q.1 ∧ 0 < q.2.1 ∧ q.1 + q.2.1 < 1 ∧ 0 < q.2.2 := by
  have : ∀ method ≤ 4, ∀ qs ∈ pointsOf method, qs.length = numberOfPoints method ∧
      ∀ q ∈ qs, 0 < q.1 ∧ 0 < q.2.1 ∧ q.1 + q.2.1 < 1 ∧ 0 < q.2.2 := by decide +kernel
  exact this method hm qs h

/-- C76: a rule has a fixed number of points; all points lie in the triangle, have positive weights (if the triangle has an area above the
tolerance) and carry the unit normal of the triangle. -/
theorem C76_points (norm : V3 ℝ → ℝ) (hn : IsNorm3 norm) {zt : ℝ} (hz : 0 ≤ zt) (t : Tri ℝ) {method : Nat} (hm : method ≤ 4) :
    ∃ ps, ipsGlobal norm zt ⟨t.p1, t.p2, t.p3⟩ method = some ps ∧ ps.length = numberOfPoints method ∧ ∀ q ∈ ps,
      InTriangle t.p1 t.p2 t.p3 q.pos ∧ (zt < norm (triangleArea2 t.p1 t.p2 t.p3) → 0 < q.weight ∧ norm q.normal = 1 ∧
        V3.scale (norm (triangleArea2 t.p1 t.p2 t.p3)) q.normal = triangleArea2 t.p1 t.p2 t.p3) := by
  obtain ⟨qs, hq, -⟩ := pointsOf_error hm
  obtain ⟨h1, h2⟩ := table_inside hm hq
  refine ⟨qs.map (ipGlobal norm zt ⟨t.p1, t.p2, t.p3⟩), by unfold ipsGlobal; rw [hq], by rw [List.length_map, h1], ?_⟩
  intro p hp
  obtain ⟨q, hqm, rfl⟩ := List.mem_map.1 hp
  obtain ⟨p1, p2, p3, p4⟩ := h2 q hqm
  have r1 : (0 : ℝ) < q.1 := by exact_mod_cast p1
  have r2 : (0 : ℝ) < q.2.1 := by exact_mod_cast p2
  have r3 : (q.1 : ℝ) + q.2.1 < 1 := by exact_mod_cast p3
  have r4 : (0 : ℝ) < q.2.2 := by exact_mod_cast p4
  refine ⟨?_, fun ha => ?_⟩
  · refine ⟨1 - q.1 - q.2.1, q.1, q.2.1, by linarith, r1.le, r2.le, by ring, rfl, rfl, rfl⟩
  · obtain ⟨n1, n2, n3, n4⟩ := (C64_normal hn hz t.p1 t.p2 t.p3).1 ha
    refine ⟨?_, n1, ?_⟩
    · rw [ipGlobal_weight]
      exact mul_pos (lt_of_le_of_lt hz ha) r4
    · simp only [V3.scale, ipGlobal]
      rw [n2, n3, n4]

/-- C76: other numbers of methods are errors. -/
theorem C76_unknown (norm : V3 ℝ → ℝ) (zt : ℝ) (c : V3 (V3 ℝ)) {method : Nat} (hm : 4 < method) : ipsGlobal norm zt c method = none := by
  match method, hm with
  | n + 5, _ => rfl

/-- The unit triangle. -/
def exUnit : Tri ℝ := ⟨⟨0, 0, 0⟩, ⟨1, 0, 0⟩, ⟨0, 1, 0⟩, ⟨0, 0, 1⟩⟩

/-- C76 is not empty: a triangle and a polynomial of degree 6. -/
example : CornersBelow 1 exUnit ∧ (∀ q ∈ [((2 : ℝ), (⟨4, 2, 0⟩ : V3 Nat)), (-1, ⟨0, 0, 3⟩)], q.2.x + q.2.y + q.2.z ≤ exactDegree 3) := by
  constructor
  · intro v hv
    simp only [exUnit, List.mem_cons, List.not_mem_nil, or_false] at hv
    rcases hv with rfl | rfl | rfl <;> norm_num
  · intro q hq
    simp only [List.mem_cons, List.not_mem_nil, or_false] at hq
    rcases hq with rfl | rfl <;> decide

/-- C76, the limit: the rule with 12 points does not integrate polynomials of degree 7: for `x^7` over the unit triangle it is off by more
than 10^-6. -/
theorem C76_degree_seven_false_of_code (norm : V3 ℝ → ℝ) (hn : IsNorm3 norm) (zt : ℝ) :
    ∃ ps, ipsGlobal norm zt ⟨exUnit.p1, exUnit.p2, exUnit.p3⟩ 3 = some ps ∧
      1 / 10 ^ 6 < |(ps.map fun q => q.weight * polynomial3 [(1, ⟨7, 0, 0⟩)] q.pos).sum -
        surfaceIntegral norm (polynomial3 [(1, ⟨7, 0, 0⟩)]) exUnit| := by
  refine ⟨_, rfl, ?_⟩
  rw [sum_points]
  unfold surfaceIntegral
  rw [← mul_sub, abs_mul]
  have e : triangleArea2 exUnit.p1 exUnit.p2 exUnit.p3 = ⟨0, 0, 1⟩ := by simp [triangleArea2, exUnit]
  have e2 : (fun r s : ℝ => polynomial3 [(1, ⟨7, 0, 0⟩)] (trianglePoint exUnit.p1 exUnit.p2 exUnit.p3 r s)) = fun x y => x ^ 7 * y ^ 0 := by
    ext r s; simp [polynomial3, trianglePoint, exUnit]
  rw [e, norm_z hn, e2, ruleSum_monomial]
  have : (1 : ℚ) / 10 ^ 6 < termError points4 7 0 := by decide +kernel
  have h2 : ((1 / 10 ^ 6 : ℚ) : ℝ) < (termError points4 7 0 : ℝ) := by exact_mod_cast this
  push_cast at h2
  simpa using h2

/-! ### C61 -/

/-- C61: for every closed surface (its edges may be divided differently on the two sides) the flux of the field is the integral of the Legendre product over the enclosed solid. -/
theorem C61_closed_surface {c : Box ℝ} (hc : ProperBox c) (i : V3 Nat) (o : V3 ℝ) {ts : List (Tri ℝ)} (h : SealedSurface ts) :
    (ts.map (flux (fluxField c i))).sum = solidIntegral o (legendre c i) ts := by
  rw [← divergence_fluxField hc]
  exact closed_divergence (smooth_fluxField c i) o h

/-- C61: if the surface is the mesh of a box, the integral over the enclosed solid is the integral over the box. -/
theorem C61_box {c : Box ℝ} (hc : ProperBox c) (i : V3 Nat) (o : V3 ℝ) {l u : V3 ℝ} (hx : l.x ≤ u.x) (hy : l.y ≤ u.y) (hz : l.z ≤ u.z)
    {ts : List (Tri ℝ)} (ht : (makeMeshBox l u).visit = some ts) :
    solidIntegral o (legendre c i) ts = boxIntegral ⟨l, u⟩ (legendre c i) := by
  have hn : IsNorm3 fun v : V3 ℝ => Real.sqrt (v.x ^ 2 + v.y ^ 2 + v.z ^ 2) :=
    fun v => ⟨Real.sqrt_nonneg _, Real.sq_sqrt (by positivity)⟩
  obtain ⟨ts', -, h2, -, -, -, -, hcl, -⟩ := C37_box hn hx hy hz
  rw [(makeMeshBox_has l u).2] at ht h2
  cases ht
  cases h2
  refine box_solid (G := fun p => Poly.fx p.x i.x c.lower.x c.upper.x * Poly.fx p.y i.y c.lower.y c.upper.y *
    Poly.fxInt p.z i.z c.lower.z c.upper.z) (contDiff_product (contDiff_fx _ _ _) (contDiff_fx _ _ _) (contDiff_fxInt _ _ _)) ?_ o l u (MeshUtil.sealed_of_closed hcl)
  intro p
  exact (Poly.C33_antiderivative c.lower.z c.upper.z p.z hc.2.2.ne i.z).const_mul
    (Poly.fx p.x i.x c.lower.x c.upper.x * Poly.fx p.y i.y c.lower.y c.upper.y)

theorem boundaryLoop_id {norm : V3 ℝ → ℝ} {zt : ℝ} (ts : List (Tri ℝ)) (out : List (BndPoint ℝ)) :
    boundaryLoop norm zt id ts out = some (out ++ ts.flatMap fun t => points4.map (ipGlobal norm zt ⟨t.p1, t.p2, t.p3⟩)) := by
  induction ts generalizing out with
  | nil => simp [boundaryLoop]
  | cons t ts ih =>
    have : ipsGlobal norm zt (Tri.corners t) 3 = some (points4.map (ipGlobal norm zt ⟨t.p1, t.p2, t.p3⟩)) := rfl
    simp only [boundaryLoop, this]
    rw [ih]
    simp

theorem abs_le_one_of_norm {norm : V3 ℝ → ℝ} (hn : IsNorm3 norm) {v : V3 ℝ} (h : norm v = 1) : |v.x| ≤ 1 ∧ |v.y| ≤ 1 ∧ |v.z| ≤ 1 := by
  have := (hn v).2
  rw [h] at this
  refine ⟨abs_le_one_iff_mul_self_le_one.2 ?_, abs_le_one_iff_mul_self_le_one.2 ?_, abs_le_one_iff_mul_self_le_one.2 ?_⟩ <;>
    nlinarith [sq_nonneg v.x, sq_nonneg v.y, sq_nonneg v.z]

/-- The points of one triangle. -/
theorem triangle_moment {norm : V3 ℝ → ℝ} (hn : IsNorm3 norm) {zt : ℝ} (hz : 0 ≤ zt) {c : Box ℝ} (hc : ProperBox c) {i : V3 Nat}
    (hi : i.x + i.y + i.z ≤ 5) {t : Tri ℝ} (ht : ∀ v ∈ [t.p1, t.p2, t.p3], InBox c v) {m : ℝ}
    (hm : (|c.lower.x| ≤ m ∧ |c.lower.y| ≤ m ∧ |c.lower.z| ≤ m) ∧ |c.upper.x| ≤ m ∧ |c.upper.y| ≤ m ∧ |c.upper.z| ≤ m)
    (ha : zt < norm (triangleArea2 t.p1 t.p2 t.p3)) :
    |boundaryMoment c (points4.map (ipGlobal norm zt ⟨t.p1, t.p2, t.p3⟩)) i - flux (fluxField c i) t| ≤
      1 / 10 ^ 14 * m * (norm (triangleArea2 t.p1 t.p2 t.p3) / 2) := by
  obtain ⟨n1, n2, n3, n4⟩ := (C64_normal hn hz t.p1 t.p2 t.p3).1 ha
  have hp := polyOn_flux hc hi ht hm (abs_le_one_of_norm hn n1)
  have he := rule_error points4_error hp
  have hA := (hn (triangleArea2 t.p1 t.p2 t.p3)).1
  have hm0 : 0 ≤ m := (abs_nonneg _).trans hm.1.1
  generalize hN : normal norm zt ⟨t.p1, t.p2, t.p3⟩ = n at *
  have hb : boundaryMoment c (points4.map (ipGlobal norm zt ⟨t.p1, t.p2, t.p3⟩)) i = norm (triangleArea2 t.p1 t.p2 t.p3) * ruleSum points4
      fun r s => n.x * (fluxField c i (trianglePoint t.p1 t.p2 t.p3 r s)).x +
      n.y * (fluxField c i (trianglePoint t.p1 t.p2 t.p3 r s)).y + n.z * (fluxField c i (trianglePoint t.p1 t.p2 t.p3 r s)).z := by
    have := sum_points norm zt t points4 fun p => n.x * (fluxField c i p).x + n.y * (fluxField c i p).y + n.z * (fluxField c i p).z
    rw [← this]
    unfold boundaryMoment
    congr 1
    apply List.map_congr_left
    intro q hq
    obtain ⟨q, -, rfl⟩ := List.mem_map.1 hq
    have : (ipGlobal norm zt ⟨t.p1, t.p2, t.p3⟩ q).normal = n := hN
    rw [this]
  have hf : flux (fluxField c i) t = norm (triangleArea2 t.p1 t.p2 t.p3) * unitTriangle
      fun r s => n.x * (fluxField c i (trianglePoint t.p1 t.p2 t.p3 r s)).x +
      n.y * (fluxField c i (trianglePoint t.p1 t.p2 t.p3 r s)).y + n.z * (fluxField c i (trianglePoint t.p1 t.p2 t.p3 r s)).z := by
    rw [← tri_smul]
    unfold flux
    apply tri_congr
    intro r s
    dsimp only
    rw [← n2, ← n3, ← n4]
    ring
  rw [hb, hf, ← mul_sub, abs_mul, abs_of_nonneg hA]
  refine (mul_le_mul_of_nonneg_left he hA).trans ?_
  push_cast
  have : 0 ≤ norm (triangleArea2 t.p1 t.p2 t.p3) * m := mul_nonneg hA hm0
  nlinarith

/-- C61: the right-hand side of the moment fitting.  Let the closed mesh of a trimmed domain lie in its cell, have triangles with (twice) an
area above the tolerance, and let the coordinates of the cell be at most `m`.  Then the boundary points are found, and every entry of the
right-hand side whose orders add up to at most five is, up to an error of the digits of the table, the integral of the Legendre product over
the enclosed solid. -/
theorem C61_moments {norm : V3 ℝ → ℝ} (hn : IsNorm3 norm) {zt : ℝ} (hz : 0 ≤ zt) (cell : Bounds ℝ) (hc : ProperBox cell.global)
    {closed : Mesh ℝ} {ts : List (Tri ℝ)} (hv : closed.visit = some ts) (hcl : SealedSurface ts)
    (hin : ∀ t ∈ ts, ∀ v ∈ [t.p1, t.p2, t.p3], InBox cell.global v) (ha : ∀ t ∈ ts, zt < norm (triangleArea2 t.p1 t.p2 t.p3)) {m : ℝ}
    (hm : (|cell.global.lower.x| ≤ m ∧ |cell.global.lower.y| ≤ m ∧ |cell.global.lower.z| ≤ m) ∧
      |cell.global.upper.x| ≤ m ∧ |cell.global.upper.y| ≤ m ∧ |cell.global.upper.z| ≤ m) (o : V3 Nat) (z : V3 ℝ) :
    ∃ bnd, boundaryIps norm zt closed false cell = some bnd ∧ ∀ a b c, a ≤ o.x → b ≤ o.y → c ≤ o.z → a + b + c ≤ 5 →
      ∃ v, (Trimmed.constantTerms cell.global o bnd)[(a * (o.y + 1) + b) * (o.z + 1) + c]? = some v ∧
        |v - solidIntegral z (legendre cell.global ⟨a, b, c⟩) ts| ≤ 1 / 10 ^ 14 * m * totalArea norm ts := by
  refine ⟨ts.flatMap fun t => points4.map (ipGlobal norm zt ⟨t.p1, t.p2, t.p3⟩), ?_, ?_⟩
  · unfold boundaryIps
    rw [hv]
    exact boundaryLoop_id ts []
  intro a b c h1 h2 h3 h4
  refine ⟨_, (Trimmed.C61_entries cell.global o _).2 a b c h1 h2 h3, ?_⟩
  rw [← C61_closed_surface hc ⟨a, b, c⟩ z hcl]
  clear hcl hv
  unfold totalArea
  induction ts with
  | nil => simp [boundaryMoment]
  | cons t ts ih =>
    have ht := triangle_moment hn hz hc (i := ⟨a, b, c⟩) h4 (hin t List.mem_cons_self) hm (ha t List.mem_cons_self)
    have hts := ih (fun t ht => hin t (List.mem_cons_of_mem _ ht)) (fun t ht => ha t (List.mem_cons_of_mem _ ht))
    have e : ∀ p q : List (BndPoint ℝ), boundaryMoment cell.global (p ++ q) ⟨a, b, c⟩ =
        boundaryMoment cell.global p ⟨a, b, c⟩ + boundaryMoment cell.global q ⟨a, b, c⟩ := by
      intro p q; simp [boundaryMoment]
    rw [List.flatMap_cons, e]
    simp only [List.map_cons, List.sum_cons]
    rw [mul_add]
    refine le_trans ?_ (add_le_add ht hts)
    refine le_trans (le_of_eq ?_) (abs_add_le _ _)
    congr 1
    ring

/-- C61 is not empty: the mesh of a cell. -/
example : ∃ ts, (makeMeshBox (⟨0, 0, 0⟩ : V3 ℝ) ⟨1, 2, 3⟩).visit = some ts ∧ SealedSurface ts ∧
    (∀ t ∈ ts, ∀ v ∈ [t.p1, t.p2, t.p3], InBox ⟨⟨0, 0, 0⟩, ⟨1, 2, 3⟩⟩ v) ∧ ProperBox (⟨⟨0, 0, 0⟩, ⟨1, 2, 3⟩⟩ : Box ℝ) ∧
    ∀ norm : V3 ℝ → ℝ, IsNorm3 norm → ∀ t ∈ ts, 1 < norm (triangleArea2 t.p1 t.p2 t.p3) := by
  have hn : IsNorm3 fun v : V3 ℝ => Real.sqrt (v.x ^ 2 + v.y ^ 2 + v.z ^ 2) :=
    fun v => ⟨Real.sqrt_nonneg _, Real.sq_sqrt (by positivity)⟩
  obtain ⟨ts', -, h2, -, -, -, -, hcl, -⟩ := C37_box hn (l := ⟨0, 0, 0⟩) (u := ⟨1, 2, 3⟩) (by norm_num) (by norm_num) (by norm_num)
  rw [(makeMeshBox_has _ _).2] at h2
  cases h2
  refine ⟨_, (makeMeshBox_has _ _).2, MeshUtil.sealed_of_closed hcl, ?_, ?_, ?_⟩
  · intro t ht v hv
    simp only [boxTris, List.mem_cons, List.not_mem_nil, or_false] at ht
    rcases ht with rfl | rfl | rfl | rfl | rfl | rfl | rfl | rfl | rfl | rfl | rfl | rfl <;>
      (simp only [List.mem_cons, List.not_mem_nil, or_false] at hv
       rcases hv with rfl | rfl | rfl <;> simp [InBox])
  · simp [ProperBox]
  · intro norm hn t ht
    simp only [boxTris, List.mem_cons, List.not_mem_nil, or_false] at ht
    rcases ht with rfl | rfl | rfl | rfl | rfl | rfl | rfl | rfl | rfl | rfl | rfl | rfl <;>
      simp [triangleArea2, norm_x hn, norm_y hn, norm_z hn] <;> norm_num

end QuESo.TriRule
