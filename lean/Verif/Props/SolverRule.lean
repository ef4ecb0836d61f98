import Verif.Props.TrimmedRule
import Verif.Props.NNLS

/-!
# C60: the rule of a trimmed element with the solver of the code
-/
namespace QuESo.TrimmedRule
open Spec Mapping Trimmed NNLS
variable {K : Type _} [Field K] [LinearOrder K] [IsStrictOrderedRing K]

/-- The equations for the weights of points at the positions `P`: one column of values of the functions for each. -/
def fittingMatrix (cell : Bounds K) (o : V3 Nat) (P : List (V3 K)) : List (List K) :=
  P.map fun p => (orders o).map fun i => shape cell.parametric i p

/-- The solver has reached the limit on the number of iterations for points at the positions `P` and reported that. -/
def LimitReached (sqrt : K → K) (junk : List (List K) → List K → Junk K) (cell : Bounds K) (o : V3 Nat) (ct : List K)
    (P : List (V3 K)) : Prop :=
  ∃ x r, solveNNLS sqrt (junk (fittingMatrix cell o P) ct) (fittingMatrix cell o P) ct = some (x, r, 3)

omit [IsStrictOrderedRing K] in
theorem fittingMatrix_eq (cell : Bounds K) (o : V3 Nat) (pts : List (VolPoint K)) :
    (pts.map fun q => (orders o).map fun i => shape cell.parametric i q.pos) = fittingMatrix cell o (pts.map VolPoint.pos) := by
  simp [fittingMatrix, List.map_map, Function.comp_def]

theorem fitWeights_spec {sqrt : K → K} (hs : IsSqrt sqrt) (junk : List (List K) → List K → Junk K) {b : List K} (hb : b ≠ []) (A : List (List K)) :
    (fitWeights sqrt junk A b).1.length = A.length ∧ (∀ w ∈ (fitWeights sqrt junk A b).1, 0 ≤ w) ∧ 0 ≤ (fitWeights sqrt junk A b).2 ∧
    (A ≠ [] → (fitWeights sqrt junk A b).2 ^ 2 ≤ squares A b (fitWeights sqrt junk A b).1 ∧
      ((∃ x r, solveNNLS sqrt (junk A b) A b = some (x, r, 3)) ∨
        (fitWeights sqrt junk A b).2 ^ 2 = squares A b (fitWeights sqrt junk A b).1 ∧
        ∀ y, Feasible A y → squares A b (fitWeights sqrt junk A b).1 ≤ squares A b y)) := by
  by_cases hA : A = []
  · have e : fitWeights sqrt junk A b = ([], 10 ^ 8) := by
      unfold fitWeights
      rw [C85_dimensions _ _ (Or.inl hA)]
    rw [e, hA]
    exact ⟨rfl, by simp, by positivity, fun h => absurd rfl h⟩
  · obtain ⟨x, r, md, e, hf, -, hr, hlow, hmd, h1⟩ := C85_solution hs (junk A b) hA hb
    have e' : fitWeights sqrt junk A b = (x, r) := by unfold fitWeights; rw [e]
    rw [e']
    refine ⟨hf.1, hf.2, hr, fun _ => ⟨hlow, ?_⟩⟩
    rcases hmd with rfl | rfl
    · exact Or.inr (h1 rfl)
    · exact Or.inl ⟨x, r, e⟩

omit [IsStrictOrderedRing K] in
/-- The error of a rule is the sum of squares of the residual of its scaled weights. -/
theorem momentError_eq {cell : Bounds K} [IsStrictOrderedRing K] (hg : ProperBox cell.global) (hp : ProperBox cell.parametric) (o : V3 Nat)
    (m : V3 Nat → K) (W : List (VolPoint K)) :
    squares (fittingMatrix cell o (W.map VolPoint.pos)) ((orders o).map m) (W.map fun q => q.weight * detJ cell) = momentError cell o W m := by
  have h := momentFitting_error_at (nnls := fun _ _ => (W.map fun q => q.weight * detJ cell, 0)) (norm := fun _ => 0) hg hp m W (o := o)
  have hW : (momentFitting (fun _ _ => (W.map fun q => q.weight * detJ cell, 0)) (fun _ => 0) cell o ((orders o).map m) W).1 = W := by
    unfold momentFitting
    dsimp only
    have hJ : detJ cell ≠ 0 := (detJ_pos hg hp).ne'
    clear h
    induction W with
    | nil => rfl
    | cons q W ih => simp [ih, mul_div_cancel_right₀ _ hJ]
  rw [hW] at h
  rw [← h, fittingMatrix_eq]
  rfl

/-- **C60** The rule of a trimmed element (without fictitious points) that the code computes.  If it has points, it consists of
those of at most as many points `W` as moments whose weight is at least the zero tolerance; all lie in the parametric bounds of
the active domain and have no negative weight.  The reported relative error is at most 0.01.  Unless the solver reports
for these points that it reaches the limit on its iterations, it is the error of the moments of `W`, and no other non-negative
weights at the same positions have a smaller one.  (If it reaches it, the reported value may be too small.) -/
theorem C60_solver {sqrt : K → K} (hq : IsSqrt sqrt) (junk : List (List K) → List K → Junk K)
    {norm : List K → K} (hN : IsNorm norm) {sort : List (VolPoint K) → List (VolPoint K)} (hs : SortsByWeight sort)
    {zt mind maxd target : K} (ht : mind < target) (hm : target < maxd) {o : V3 Nat} {e : Elem K}
    (hg : ProperBox e.cell.global) (hp : ProperBox e.cell.parametric) (hx : ProperBox e.active.global)
    (hu : ProperBox e.active.parametric) (r1 : NodesInUnit e.rule.x) (r2 : NodesInUnit e.rule.y)
    (r3 : NodesInUnit e.rule.z) {bnd : List (BndPoint K)}
    (hz : momentSquares o (boundaryMoment e.cell.global bnd) ≠ 0) {res : K} {out : List (VolPoint K)}
    (h : assembleIPs (fitWeights sqrt junk) norm sort zt mind maxd target o e bnd none = .ok (res, out)) (hout : out ≠ []) :
    ∃ W, out = W.filter (fun q => zt ≤ q.weight) ∧ W.length ≤ numMoments o ∧
      (∀ q ∈ W, 0 ≤ q.weight ∧ InBox e.active.parametric q.pos) ∧ 0 ≤ res ∧ res ≤ 1 / 100 ∧
      res ^ 2 * momentSquares o (boundaryMoment e.cell.global bnd) ≤ momentError e.cell o W (boundaryMoment e.cell.global bnd) ∧
      (LimitReached sqrt junk e.cell o (constantTerms e.cell.global o bnd) (W.map VolPoint.pos) ∨
        res ^ 2 * momentSquares o (boundaryMoment e.cell.global bnd) = momentError e.cell o W (boundaryMoment e.cell.global bnd) ∧
        ∀ W' : List (VolPoint K), W'.map VolPoint.pos = W.map VolPoint.pos → (∀ q ∈ W', 0 ≤ q.weight) →
          momentError e.cell o W (boundaryMoment e.cell.global bnd) ≤ momentError e.cell o W' (boundaryMoment e.cell.global bnd)) := by
  have hct := constantTerms_eq e.cell.global o bnd
  have hb : constantTerms e.cell.global o bnd ≠ [] := by
    intro h0
    have := Trimmed.C61_entries e.cell.global o bnd
    have h2 := this.2 0 0 0 (Nat.zero_le _) (Nat.zero_le _) (Nat.zero_le _)
    rw [h0] at h2
    simp at h2
  have hJ := detJ_pos hg hp
  have hk : KeepsPositions (momentFitting (fitWeights sqrt junk) norm e.cell o (constantTerms e.cell.global o bnd)) :=
    momentFitting_keeps_at (fun A => (fitWeights_spec hq junk hb A).1) norm e.cell o
  rcases (C32_limit_partial hk hs ht hm h).1 with h0 | ⟨h1, S, hl, hS, h2, h3⟩
  · exact absurd h0 hout
  · set A := fittingMatrix e.cell o (S.map VolPoint.pos) with hA
    set b := constantTerms e.cell.global o bnd with hbd
    obtain ⟨f1, f2, f3, f4⟩ := fitWeights_spec hq junk hb A
    set W := (momentFitting (fitWeights sqrt junk) norm e.cell o b S).1 with hW
    have hpos : W.map VolPoint.pos = S.map VolPoint.pos := hk S
    have hS0 : S ≠ [] := by
      intro h0
      apply hout
      rw [h0, List.map_nil, List.map_eq_nil_iff] at hpos
      rw [h3, hpos]
      rfl
    have hA0 : A ≠ [] := by simpa [hA, fittingMatrix] using hS0
    obtain ⟨f5, f6⟩ := f4 hA0
    have hWw : W = List.zipWith (fun (q : VolPoint K) w => ⟨q.pos, w / detJ e.cell⟩) S (fitWeights sqrt junk A b).1 := by
      rw [hW]
      unfold momentFitting
      dsimp only
      rw [fittingMatrix_eq]
    have hres : res = (fitWeights sqrt junk A b).2 / norm b := by
      rw [h2]
      unfold momentFitting
      dsimp only
      rw [fittingMatrix_eq]
    have herr : squares A b (fitWeights sqrt junk A b).1 = momentError e.cell o W (boundaryMoment e.cell.global bnd) := by
      rw [hW, hct, ← momentFitting_error_at hg hp, fittingMatrix_eq, ← hA, ← hct]
      rfl
    have hne : norm b ≠ 0 := by
      intro e0
      apply hz
      rw [← norm_moments hN, ← hct, e0]; simp
    have hsq : res ^ 2 * momentSquares o (boundaryMoment e.cell.global bnd) = (fitWeights sqrt junk A b).2 ^ 2 := by
      rw [hres, ← norm_moments hN, ← hct, div_pow, div_mul_cancel₀ _ (pow_ne_zero 2 hne)]
    refine ⟨W, h3, (keeps_length hk S).le.trans hl, ?_, ?_, h1, ?_, ?_⟩
    · intro q hq
      constructor
      · rw [hWw, ← List.map_uncurry_zip_eq_zipWith] at hq
        obtain ⟨⟨x, w⟩, hxw, rfl⟩ := List.mem_map.1 hq
        exact div_nonneg (f2 w (List.of_mem_zip hxw).2) hJ.le
      · have : q.pos ∈ S.map VolPoint.pos := by rw [← hpos]; exact List.mem_map_of_mem hq
        obtain ⟨s, hs', hse⟩ := List.mem_map.1 this
        obtain ⟨n, pts, ⟨t, ht', rfl⟩, c, hc, hce⟩ := hS s hs'
        have hx' : OrderedBox e.active.global := ⟨hx.1.le, hx.2.1.le, hx.2.2.le⟩
        have := (Octree.C21_inside hx' hu r1 r2 r3 ht' c hc).1
        rwa [hce, hse] at this
    · rw [hres]; exact div_nonneg f3 (hN _).1
    · rw [hsq, ← herr]; exact f5
    · rcases f6 with ⟨x, r, f6⟩ | ⟨f6, f7⟩
      · left
        refine ⟨x, r, ?_⟩
        rw [hpos]
        exact f6
      · right
        refine ⟨by rw [hsq, ← herr]; exact f6, fun W' hW' hw' => ?_⟩
        have := f7 (W'.map fun q => q.weight * detJ e.cell) ⟨?_, ?_⟩
        · rw [← herr, ← momentError_eq hg hp o _ W', hW', hpos, ← hA, ← hct]
          exact this
        · have hlen := congrArg List.length (hW'.trans hpos)
          simp only [List.length_map] at hlen
          simp [hA, fittingMatrix, hlen]
        · intro w hw
          obtain ⟨q, hq, rfl⟩ := List.mem_map.1 hw
          exact mul_nonneg (hw' q hq) hJ.le

/-- **C60** What the rule of a trimmed element integrates, with the solver of the code: as `C60_solid` and `C60_volume`, unless the
solver reports for at most as many points as moments, among them those of the rule, that it reaches the limit on its iterations. -/
theorem C60_solver_solid {sqrt : ℝ → ℝ} (hq : IsSqrt sqrt) (junk : List (List ℝ) → List ℝ → Junk ℝ)
    {norm : List ℝ → ℝ} (hN : IsNorm norm) {norm3 : V3 ℝ → ℝ} (hn3 : IsNorm3 norm3)
    {sort : List (VolPoint ℝ) → List (VolPoint ℝ)} (hs : SortsByWeight sort)
    {zt mind maxd target : ℝ} (hzt : 0 ≤ zt) (ht : mind < target) (hm : target < maxd) {o : V3 Nat} {e : Trimmed.Elem ℝ}
    (hg : ProperBox e.cell.global) (hp : ProperBox e.cell.parametric) (hx : ProperBox e.active.global)
    (hu : ProperBox e.active.parametric) (hsub : SubBox e.active.parametric e.cell.parametric)
    (r1 : NodesInUnit e.rule.x) (r2 : NodesInUnit e.rule.y) (r3 : NodesInUnit e.rule.z)
    {closed : Mesh ℝ} {ts : List (Tri ℝ)} (hv : closed.visit = some ts) (hcl : SealedSurface ts)
    (hin : ∀ t ∈ ts, ∀ v ∈ [t.p1, t.p2, t.p3], InBox e.cell.global v) (ha : ∀ t ∈ ts, zt < norm3 (triangleArea2 t.p1 t.p2 t.p3))
    {m : ℝ} (hmm : (|e.cell.global.lower.x| ≤ m ∧ |e.cell.global.lower.y| ≤ m ∧ |e.cell.global.lower.z| ≤ m) ∧
      |e.cell.global.upper.x| ≤ m ∧ |e.cell.global.upper.y| ≤ m ∧ |e.cell.global.upper.z| ≤ m)
    {bnd : List (BndPoint ℝ)} (hb : TriRule.boundaryIps norm3 zt closed false e.cell = some bnd) {N : ℝ} (hN0 : 0 < N)
    (hN2 : N ^ 2 = momentSquares o (boundaryMoment e.cell.global bnd)) {res : ℝ} {out : List (VolPoint ℝ)}
    (h : Trimmed.assembleIPs (fitWeights sqrt junk) norm sort zt mind maxd target o e bnd none = .ok (res, out)) (hout : out ≠ []) (z : V3 ℝ) :
    (∃ P, (∀ q ∈ out, q.pos ∈ P) ∧ P.length ≤ numMoments o ∧
      LimitReached sqrt junk e.cell o (constantTerms e.cell.global o bnd) P) ∨
    0 ≤ res ∧ res ≤ 1 / 100 ∧ (∀ a b c, a ≤ o.x → b ≤ o.y → c ≤ o.z → a + b + c ≤ 5 →
      |ruleMoment e.cell ⟨a, b, c⟩ out - solidIntegral z (legendre e.cell.global ⟨a, b, c⟩) ts| ≤
        res * N + numMoments o * (zt * (boxVolume e.cell.global / boxVolume e.cell.parametric)) +
          1 / 10 ^ 14 * m * totalArea norm3 ts) ∧
    |(out.map VolPoint.weight).sum * (boxVolume e.cell.global / boxVolume e.cell.parametric) - volume6 ts / 6| ≤
      res * N + numMoments o * (zt * (boxVolume e.cell.global / boxVolume e.cell.parametric)) +
        1 / 10 ^ 14 * m * totalArea norm3 ts := by
  obtain ⟨W, w1, w2, w3, w4, w5, -, w6⟩ := C60_solver hq junk hN hs ht hm hg hp hx hu r1 r2 r3 (by rw [← hN2]; positivity) h hout
  rcases w6 with w6 | ⟨w6, -⟩
  · refine Or.inl ⟨_, fun q hq => ?_, by rwa [List.length_map], w6⟩
    rw [w1] at hq
    exact List.mem_map_of_mem (List.mem_of_mem_filter hq)
  · right
    have hacc := accuracy_of_fit hzt hg hp hsub hN0 hN2 w1 w2 w3 w4 w6
    refine ⟨w4, w5, solid_of_accuracy hn3 hzt hg hv hcl hin ha hmm hb z hacc, ?_⟩
    exact volume_of_solid hg hp (solid_of_accuracy hn3 hzt hg hv hcl hin ha hmm hb ⟨0, 0, 0⟩ hacc 0 0 0
      (Nat.zero_le _) (Nat.zero_le _) (Nat.zero_le _) (by norm_num))

theorem solver_order_zero (junk : List (List ℝ) → List ℝ → Junk ℝ) {A : List (List ℝ)} {v : ℝ} (hA : A ≠ []) (hc : ∀ c ∈ A, c = [1])
    (hv : 0 < v) : (fitWeights Real.sqrt junk A [v]).2 = 0 := by
  have hs : IsSqrt Real.sqrt := fun x hx => ⟨Real.sqrt_nonneg x, Real.mul_self_sqrt hx⟩
  obtain ⟨x, r, e⟩ := C85_one_row hs (junk A [v]) hA v
  unfold fitWeights
  rw [e]
  obtain ⟨c, A', rfl⟩ := List.exists_cons_of_ne_nil hA
  refine (C85_exact hs e (y := v :: List.replicate A'.length 0) ⟨by simp, ?_⟩ ?_).1
  · intro w hw
    rcases List.mem_cons.1 hw with rfl | hw
    · exact hv.le
    · rw [(List.mem_replicate.1 hw).2]
  · intro k hk
    have hk0 : k = 0 := by simpa using hk
    subst hk0
    have h0 : ∀ B : List (List ℝ), (List.zipWith (fun w (col : List ℝ) => w * col.getD 0 0) (List.replicate B.length 0) B).sum = 0 := by
      intro B
      induction B with
      | nil => rfl
      | cons d B ih => simpa [List.replicate_succ] using ih
    unfold residualAt
    rw [List.zipWith_cons_cons, List.sum_cons, h0, hc c (by simp)]
    simp

/-- Beside `C60_solver` and `C60_solver_solid`: the unit cell with the mesh of a box as boundary meets all hypotheses, the rule has
a point, and the limit is not reached for any points. -/
example {norm3 : V3 ℝ → ℝ} (hn3 : IsNorm3 norm3) (junk : List (List ℝ) → List ℝ → Junk ℝ) :
    ∃ ts bnd res out N, (MeshUtil.makeMeshBox (⟨0, 0, 0⟩ : V3 ℝ) ⟨1, 1, 1⟩).visit = some ts ∧ SealedSurface ts ∧
      (∀ t ∈ ts, ∀ v ∈ [t.p1, t.p2, t.p3], InBox Trimmed.elemR.cell.global v) ∧
      (∀ t ∈ ts, 0 < norm3 (triangleArea2 t.p1 t.p2 t.p3)) ∧
      TriRule.boundaryIps norm3 0 (MeshUtil.makeMeshBox ⟨0, 0, 0⟩ ⟨1, 1, 1⟩) false Trimmed.elemR.cell = some bnd ∧ 0 < N ∧
      N ^ 2 = momentSquares ⟨0, 0, 0⟩ (boundaryMoment Trimmed.elemR.cell.global bnd) ∧
      Trimmed.assembleIPs (fitWeights Real.sqrt junk) (fun v => Real.sqrt ((v.map fun x => x ^ 2).sum))
        (fun l => l.mergeSort fun a b => b.weight ≤ a.weight) 0 0 2 1 ⟨0, 0, 0⟩ Trimmed.elemR bnd none = .ok (res, out) ∧ out ≠ [] ∧
      ∀ P, ¬ LimitReached Real.sqrt junk Trimmed.elemR.cell ⟨0, 0, 0⟩ (constantTerms Trimmed.elemR.cell.global ⟨0, 0, 0⟩ bnd) P := by
  have hs : IsSqrt Real.sqrt := fun x hx => ⟨Real.sqrt_nonneg x, Real.mul_self_sqrt hx⟩
  obtain ⟨ts, bnd, a1, a2, a3, a4, a5, a6⟩ := unit_box_boundary hn3
  obtain ⟨res, out, q1, q2, q3⟩ := Trimmed.elemR_rule_of (nnls := fitWeights Real.sqrt junk) bnd a6
    (fun A v => (fitWeights_spec hs junk (by simp) A).1) (fun A v => (fitWeights_spec hs junk (by simp) A).2.1)
    (fun A v hA hc hv => solver_order_zero junk hA hc hv)
  refine ⟨ts, bnd, res, out, _, a1, a2, a3, a4, a5, a6, q3, q1, q2, fun P => ?_⟩
  rintro ⟨x, r, h⟩
  have hct : constantTerms elemR.cell.global ⟨0, 0, 0⟩ bnd = [boundaryMoment elemR.cell.global bnd ⟨0, 0, 0⟩] := by
    rw [constantTerms_eq]
    simp only [orders, zero_add, List.range_one, List.flatMap_singleton, List.map_cons, List.map_nil]
  rw [hct] at h
  by_cases hP : fittingMatrix elemR.cell ⟨0, 0, 0⟩ P = []
  · rw [C85_dimensions _ _ (Or.inl hP)] at h
    simp at h
  · obtain ⟨x', r', h'⟩ := C85_one_row hs (junk (fittingMatrix elemR.cell ⟨0, 0, 0⟩ P)
      [boundaryMoment elemR.cell.global bnd ⟨0, 0, 0⟩]) hP (boundaryMoment elemR.cell.global bnd ⟨0, 0, 0⟩)
    rw [h'] at h
    simp at h

end QuESo.TrimmedRule
