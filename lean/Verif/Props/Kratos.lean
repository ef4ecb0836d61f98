import Verif.Proofs.KratosAll
import Verif.Props.MeshUtilities

/-!
# Properties of the interface to Kratos
-/
namespace QuESo.Kratos
open QuESo.MeshUtil QuESo.TriRule QuESo.BSpline QuESo.Spec QuESo.KratosSpec
variable {K : Type} [Field K] [LinearOrder K] [IsStrictOrderedRing K]

/-! ## C89: loads in a given direction -/

/-- C89: a surface load of a modulus and a direction.  Exactly the triangles with an area of at least 3e-14 are loaded, at three points each,
placed at the corresponding points of the parameter space; every point carries a third of the area times the load, the new conditions get the
next ids, nothing else changes.  The sum of the forces is the load times an area that differs from the area of the surface by at most 3e-14
for each triangle. -/
theorem C89_surface_load {S : Setup K} (hn : IsNorm3 S.norm) (hx : ProperBox S.xyz) (hu : ProperBox S.uvw) {m : Mesh K} {ts : List (Tri K)}
    (hv : m.visit = some ts) {mp : ModelPart K} (h : Numbered mp.conditions) (modulus : K) {d : V3 K} (hd : d ≠ ⟨0, 0, 0⟩) :
    ∃ mp' new, surfaceLoad S m (surfaceForce S.norm modulus d) mp = some mp' ∧ mp' = { mp with conditions := mp.conditions ++ new } ∧
      Numbered mp'.conditions ∧
      List.Forall₂ (fun c (e : V3 K × K × V3 K) => LoadAt S.xyz S.uvw c e.1 e.2.1 e.2.2) new
        ((ts.filter fun t => decide (3 / 10 ^ 14 ≤ triangleArea S.norm t)).flatMap fun t => (loadPoints t).map fun p =>
          (p, triangleArea S.norm t / 3, V3.scale (triangleArea S.norm t / 3 * modulus / S.norm d) d)) ∧
      ∃ A, totalForce mp' new = some (V3.scale (A * modulus / S.norm d) d) ∧ totalArea S.norm ts - 3 / 10 ^ 14 * ts.length ≤ A ∧
        A ≤ totalArea S.norm ts := by
  have hd0 : S.norm d ≠ 0 := by
    intro h0
    have e := (hn d).2
    rw [h0] at e
    have hx' := sq_nonneg d.x
    have hy' := sq_nonneg d.y
    have hz' := sq_nonneg d.z
    refine hd (V3.ext ?_ ?_ ?_)
    · exact pow_eq_zero_iff (two_ne_zero) |>.1 (by linarith)
    · exact pow_eq_zero_iff (two_ne_zero) |>.1 (by linarith)
    · exact pow_eq_zero_iff (two_ne_zero) |>.1 (by linarith)
  have hsf : surfaceForce S.norm modulus d = .set (V3.scale modulus (V3.scale (1 / S.norm d) d)) := by
    unfold surfaceForce; rw [if_neg hd0]
  obtain ⟨mp', new, e1, e2, e3, e4, e5⟩ := load_spec (S := S) hx hu (ts := ts) (force := fun q => .set (V3.scale q.weight
    (V3.scale modulus (V3.scale (1 / S.norm d) d)))) (φ := fun t => V3.scale (triangleArea S.norm t / 3 * modulus / S.norm d) d) (by
      intro t _ p
      congr 1
      apply V3.ext <;> simp <;> ring) h
  refine ⟨mp', new, ?_, e2, e3, e4, ((loaded S.norm ts).map (triangleArea S.norm)).sum, ?_, ?_, ?_⟩
  · unfold surfaceLoad
    rw [hv, Option.bind_some, hsf]
    dsimp only
    rw [e1]
    rfl
  · rw [e5]
    congr 1
    induction loaded S.norm ts with
    | nil => apply V3.ext <;> simp [sumV]
    | cons t l ih =>
      rw [List.map_cons, sumV_cons, ih, List.map_cons, List.sum_cons]
      apply V3.ext <;> simp <;> ring
  · have := (abs_le.1 (sum_filter (fun t => decide (3 / 10 ^ 14 ≤ triangleArea S.norm t)) (triangleArea S.norm) (c := 3 / 10 ^ 14) (l := ts) (by
      intro t _ ht
      rw [abs_of_nonneg (show 0 ≤ triangleArea S.norm t from div_nonneg (hn _).1 (by norm_num))]
      exact (not_le.1 (by simpa using ht)).le) (by positivity))).2
    unfold loaded totalArea
    change (ts.map (triangleArea S.norm)).sum - _ ≤ _
    linarith
  · exact sum_filter_le _ (triangleArea S.norm) fun t _ => div_nonneg (hn _).1 (by norm_num)

/-- C89, the limit: a direction of length zero is not an error although an exception is meant for it: conditions with forces that are not numbers
are added. -/
theorem C89_zero_direction_false_of_code {S : Setup K} (hn : IsNorm3 S.norm) (hx : ProperBox S.xyz) (hu : ProperBox S.uvw) {m : Mesh K}
    {ts : List (Tri K)} (hv : m.visit = some ts) {t : Tri K} (ht : t ∈ ts) (ha : 3 / 10 ^ 14 ≤ triangleArea S.norm t) {mp : ModelPart K}
    (h : Numbered mp.conditions) (modulus : K) :
    ∃ mp', surfaceLoad S m (surfaceForce S.norm modulus ⟨0, 0, 0⟩) mp = some mp' ∧ ∃ c ∈ mp'.conditions, c.kind = "LoadCondition" ∧
      c.load = .nan ∧ totalForce mp' mp'.conditions = none := by
  have h0 : S.norm ⟨0, 0, 0⟩ = 0 := by
    have := (hn ⟨0, 0, 0⟩).2
    simpa using this
  have hsf : surfaceForce S.norm modulus ⟨0, 0, 0⟩ = .nan := by unfold surfaceForce; rw [if_pos h0]
  have hc : ∃ c ∈ (ext mp (ts.flatMap (loadConds S fun _ => .nan))).conditions, c.kind = "LoadCondition" ∧ c.load = .nan := by
    obtain ⟨p, hp⟩ : ∃ p, p ∈ loadPoints t := ⟨_, List.mem_cons_self⟩
    have : (⟨"LoadCondition", 0, .points [(image S p, triangleArea S.norm t / 3)], .nan, none⟩ : Cond K) ∈
        ts.flatMap (loadConds S fun _ => .nan) := by
      rw [loadConds_eq, List.mem_flatMap]
      exact ⟨t, List.mem_filter.2 ⟨ht, by simpa using ha⟩, List.mem_map.2 ⟨p, hp, rfl⟩⟩
    obtain ⟨i, hi⟩ := mem_number (mp.conditions.length + 1) this
    exact ⟨_, List.mem_append_right _ hi, rfl, rfl⟩
  refine ⟨ext mp (ts.flatMap (loadConds S fun _ => .nan)), ?_, ?_⟩
  · unfold surfaceLoad
    rw [hv, Option.bind_some, hsf]
    dsimp only
    rw [loadLoop_eq hx hu _ ts h]
    rfl
  · obtain ⟨c, hc, e1, e2⟩ := hc
    refine ⟨c, hc, e1, e2, ?_⟩
    unfold totalForce
    rw [mapM_none hc (by unfold forceOf; rw [if_pos e1, e2])]
    rfl

/-! ## C90: pressure -/

/-- C90: a pressure load.  Exactly the triangles with an area of at least 3e-14 are loaded, at three points each, placed at the corresponding
points of the parameter space; every point carries a third of the pressure times the area, against the normal of the triangle (minus a sixth
of the pressure times twice the area vector).  The sum of the forces is the pressure on the area vector of the surface up to 3e-14 times the
pressure for each triangle; on a closed surface it vanishes up to this error. -/
theorem C90_pressure {S : Setup K} (hn : IsNorm3 S.norm) (hz : 0 ≤ S.zt) (hz2 : S.zt < 6 / 10 ^ 14) (hx : ProperBox S.xyz) (hu : ProperBox S.uvw)
    {m : Mesh K} {ts : List (Tri K)} (hv : m.visit = some ts) {mp : ModelPart K} (h : Numbered mp.conditions) (modulus : K) :
    ∃ mp' new F, pressureLoad S m modulus mp = some mp' ∧ mp' = { mp with conditions := mp.conditions ++ new } ∧ Numbered mp'.conditions ∧
      List.Forall₂ (fun c (e : V3 K × K × V3 K) => LoadAt S.xyz S.uvw c e.1 e.2.1 e.2.2) new
        ((ts.filter fun t => decide (3 / 10 ^ 14 ≤ triangleArea S.norm t)).flatMap fun t => (loadPoints t).map fun p =>
          (p, triangleArea S.norm t / 3, V3.scale (-(modulus / 6)) (triangleArea2 t.p1 t.p2 t.p3))) ∧
      totalForce mp' new = some F ∧
      (∀ i, |coord F i + modulus / 2 * coord (surfaceArea2 ts) i| ≤ 3 / 10 ^ 14 * |modulus| * ts.length) ∧
      (SealedSurface ts → ∀ i, |coord F i| ≤ 3 / 10 ^ 14 * |modulus| * ts.length) := by
  obtain ⟨mp', new, e1, e2, e3, e4, e5⟩ := load_spec (S := S) hx hu (ts := ts)
    (force := fun q => .set (V3.scale (-1 * q.weight * modulus) q.normal))
    (φ := fun t => V3.scale (-(modulus / 6)) (triangleArea2 t.p1 t.p2 t.p3)) (by
      intro t ht p
      have ha : 3 / 10 ^ 14 ≤ triangleArea S.norm t := by simpa using (List.mem_filter.1 ht).2
      have hlt : S.zt < S.norm (triangleArea2 t.p1 t.p2 t.p3) := by
        have : triangleArea S.norm t = S.norm (triangleArea2 t.p1 t.p2 t.p3) / 2 := rfl
        linarith
      obtain ⟨-, g1, g2, g3⟩ := (C64_normal hn hz t.p1 t.p2 t.p3).1 hlt
      congr 1
      apply V3.ext
      · simp only [V3.scale_x, triangleArea, ← g1]; ring
      · simp only [V3.scale_y, triangleArea, ← g2]; ring
      · simp only [V3.scale_z, triangleArea, ← g3]; ring) h
  have hb : ∀ i, |coord (sumV ((loaded S.norm ts).map fun t => V3.scale 3 (V3.scale (-(modulus / 6)) (triangleArea2 t.p1 t.p2 t.p3)))) i +
      modulus / 2 * coord (surfaceArea2 ts) i| ≤ 3 / 10 ^ 14 * |modulus| * ts.length := by
    intro i
    have hs := sum_filter (fun t => decide (3 / 10 ^ 14 ≤ triangleArea S.norm t)) (fun t => coord (triangleArea2 t.p1 t.p2 t.p3) i)
      (c := 6 / 10 ^ 14) (l := ts) (by
        intro t _ ht
        have h1 := coord_le hn (triangleArea2 t.p1 t.p2 t.p3) i
        have h2' : triangleArea S.norm t < 3 / 10 ^ 14 := by simpa using ht
        have h2 : S.norm (triangleArea2 t.p1 t.p2 t.p3) / 2 < 3 / 10 ^ 14 := h2'
        linarith) (by positivity)
    have e : coord (sumV ((loaded S.norm ts).map fun t => V3.scale 3 (V3.scale (-(modulus / 6)) (triangleArea2 t.p1 t.p2 t.p3)))) i =
        -(modulus / 2) * ((loaded S.norm ts).map fun t => coord (triangleArea2 t.p1 t.p2 t.p3) i).sum := by
      rw [coord_sumV, ← List.sum_map_mul_left]
      congr 1
      refine List.map_congr_left fun t _ => ?_
      rw [coord_scale, coord_scale]
      ring
    have e2 : coord (surfaceArea2 ts) i = (ts.map fun t => coord (triangleArea2 t.p1 t.p2 t.p3) i).sum := coord_sumV _ _ _
    rw [e, e2]
    unfold loaded
    rw [show ∀ a b : K, -(modulus / 2) * a + modulus / 2 * b = modulus / 2 * (b - a) from fun a b => by ring, abs_mul, abs_div,
      abs_of_pos (show (0 : K) < 2 by norm_num)]
    have := mul_le_mul_of_nonneg_left hs (show 0 ≤ |modulus| / 2 by positivity)
    linarith
  refine ⟨mp', new, _, ?_, e2, e3, e4, e5, hb, ?_⟩
  · unfold pressureLoad
    rw [hv, Option.bind_some, e1]
    rfl
  · intro hc i
    have := hb i
    rw [closed_area hc] at this
    have h0 : coord (⟨0, 0, 0⟩ : V3 K) i = 0 := by fin_cases i <;> rfl
    rwa [h0, mul_zero, add_zero] at this

/-! ## C91: supports -/

/-- C91: a penalty support.  Exactly those triangles get a condition that have an area above the tolerance, an aspect ratio below 1e8 (longest
edge times perimeter, divided by the root of 48 times the area) and whose surface in the volume has (according to Kratos) an area above 1e-14;
the conditions are placed at the corresponding points of the parameter space, carry the prescribed displacement, are in the order of the triangles
and get the next ids; the factor is stored in the properties of the model part; nothing else changes. -/
theorem C91_penalty_support {S : Setup K} (hn : IsNorm3 S.norm) (hr : 0 < S.root3) (he : 0 ≤ S.eps) (hx : ProperBox S.xyz) (hu : ProperBox S.uvw)
    {m : Mesh K} {ts : List (Tri K)} (hv : m.visit = some ts) {mp : ModelPart K} (h : Numbered mp.conditions) (u : V3 K) (factor : K) :
    ∃ mp' new good, penaltySupport S m u factor mp = some mp' ∧
      mp' = { mp with conditions := mp.conditions ++ new, penalty := some factor } ∧ Numbered mp'.conditions ∧
      List.Forall₂ (SupportOn S.xyz S.uvw "SupportPenaltyCondition" u) new (ts.filter good) ∧
      ∀ t ∈ ts, ∀ q1 q2 q3, SamePlace S.xyz S.uvw t.p1 q1 → SamePlace S.xyz S.uvw t.p2 q2 → SamePlace S.xyz S.uvw t.p3 q3 →
        (good t = true ↔ S.eps < triangleArea S.norm t ∧
          longestEdge S.norm t * perimeter S.norm t < 10 ^ 8 * (4 * S.root3 * triangleArea S.norm t) ∧
          1 / 10 ^ 14 < S.surfaceArea ⟨q1, q2, q3⟩) := by
  obtain ⟨new, e1, e2, e3⟩ := support_spec hn hr he hx hu "SupportPenaltyCondition" u ts
    (mp := { mp with penalty := some factor }) h
  refine ⟨_, _, _, ?_, rfl, ?_, e2, e3⟩
  · unfold penaltySupport
    rw [hv]
    simp only [Option.bind_some]
    rw [e1]
    rfl
  · exact ext_numbered (mp := { mp with penalty := some factor }) h new

/-- C91: a support with Lagrange multipliers: the same triangles get conditions. -/
theorem C91_lagrange_support {S : Setup K} (hn : IsNorm3 S.norm) (hr : 0 < S.root3) (he : 0 ≤ S.eps) (hx : ProperBox S.xyz) (hu : ProperBox S.uvw)
    {m : Mesh K} {ts : List (Tri K)} (hv : m.visit = some ts) {mp : ModelPart K} (h : Numbered mp.conditions) (u : V3 K) :
    ∃ mp' new good, lagrangeSupport S m u mp = some mp' ∧ mp' = { mp with conditions := mp.conditions ++ new } ∧ Numbered mp'.conditions ∧
      List.Forall₂ (SupportOn S.xyz S.uvw "SupportLagrangeCondition" u) new (ts.filter good) ∧
      ∀ t ∈ ts, ∀ q1 q2 q3, SamePlace S.xyz S.uvw t.p1 q1 → SamePlace S.xyz S.uvw t.p2 q2 → SamePlace S.xyz S.uvw t.p3 q3 →
        (good t = true ↔ S.eps < triangleArea S.norm t ∧
          longestEdge S.norm t * perimeter S.norm t < 10 ^ 8 * (4 * S.root3 * triangleArea S.norm t) ∧
          1 / 10 ^ 14 < S.surfaceArea ⟨q1, q2, q3⟩) := by
  obtain ⟨new, e1, e2, e3⟩ := support_spec hn hr he hx hu "SupportLagrangeCondition" u ts h
  refine ⟨_, _, _, ?_, rfl, ext_numbered h new, e2, e3⟩
  unfold lagrangeSupport
  rw [hv]
  simp only [Option.bind_some]
  rw [e1]
  rfl

/-- C91: after all conditions have been added, the factor of the model part is the one of the last penalty support that has a segment.  So if
all penalty supports ask for the same factor, this is the one that is used. -/
theorem C91_factor_partial {S : Setup K} (hx : ProperBox S.xyz) (hu : ProperBox S.uvw) {bcs : List (BC K)} (hc : ∀ bc ∈ bcs, Complete bc)
    {mp : ModelPart K} (h : Numbered mp.conditions) : ∃ mp', addConditions S bcs mp = some mp' ∧
      ((∀ s ms, BC.weak s ms ∈ bcs → s.type = "PenaltySupportCondition" → ms = []) → mp'.penalty = mp.penalty) ∧
      (∀ pre s ms post, bcs = pre ++ BC.weak s ms :: post → s.type = "PenaltySupportCondition" → ms ≠ [] →
        (∀ s' ms', BC.weak s' ms' ∈ post → s'.type = "PenaltySupportCondition" → ms' = []) → mp'.penalty = s.penalty) ∧
      ∀ p, (∀ s ms, BC.weak s ms ∈ bcs → s.type = "PenaltySupportCondition" → s.penalty = some p) →
        (∃ s ms, BC.weak s ms ∈ bcs ∧ s.type = "PenaltySupportCondition" ∧ ms ≠ []) → mp'.penalty = some p := by
  obtain ⟨rs, a1, a2, -, a4⟩ := prepare_loop S.norm bcs hc []
  obtain ⟨mp', new, b1, -, -, -, -, b6, -⟩ := applyAll_spec hx hu rs a2 mp h
  have keep : ∀ (l : List (BC K)), (∀ s ms, BC.weak s ms ∈ l → s.type = "PenaltySupportCondition" → ms = []) →
      ∀ q, l.foldl (fun q bc => bc.factor q) q = q := by
    intro l
    induction l with
    | nil => exact fun _ _ => rfl
    | cons bc l ih =>
      intro hl q
      rw [List.foldl_cons, ih (fun s ms hm => hl s ms (by simp [hm]))]
      cases bc with
      | weak s ms =>
        refine if_neg fun hh => hh.2 (hl s ms (by simp) hh.1)
      | dirichlet b d => rfl
      | neumann b f => rfl
  have last : ∀ pre s ms post, bcs = pre ++ BC.weak s ms :: post → s.type = "PenaltySupportCondition" → ms ≠ [] →
        (∀ s' ms', BC.weak s' ms' ∈ post → s'.type = "PenaltySupportCondition" → ms' = []) → mp'.penalty = s.penalty := by
    intro pre s ms post e ht hms hp
    rw [b6, a4, e, List.foldl_append, List.foldl_cons, keep post hp]
    exact if_pos ⟨ht, hms⟩
  refine ⟨mp', ?_, ?_, last, ?_⟩
  · unfold addConditions
    rw [prepare_eq, a1, List.nil_append, Option.bind_some]
    exact b1
  · intro hl
    rw [b6, a4, keep bcs hl]
  · intro p hp hex
    have hlast : ∀ (l : List (BC K)) (q : Option K), (∀ s ms, BC.weak s ms ∈ l → s.type = "PenaltySupportCondition" → s.penalty = some p) →
        ((∃ s ms, BC.weak s ms ∈ l ∧ s.type = "PenaltySupportCondition" ∧ ms ≠ []) ∨ q = some p) →
        l.foldl (fun q bc => bc.factor q) q = some p := by
      intro l
      induction l with
      | nil =>
        rintro q _ (⟨s, ms, hm, -⟩ | e)
        · cases hm
        · exact e
      | cons bc l ih =>
        intro q hl hq
        rw [List.foldl_cons]
        refine ih _ (fun s ms hm => hl s ms (by simp [hm])) ?_
        cases bc with
        | weak s ms =>
          by_cases hh : s.type = "PenaltySupportCondition" ∧ ms ≠ []
          · exact .inr ((if_pos hh).trans (hl s ms (by simp) hh.1))
          · rcases hq with ⟨s', ms', hm, e1, e2⟩ | e
            · rcases List.mem_cons.1 hm with hm | hm
              · cases hm
                exact absurd ⟨e1, e2⟩ hh
              · exact .inl ⟨s', ms', hm, e1, e2⟩
            · exact .inr ((if_neg hh).trans e)
        | dirichlet b d =>
          rcases hq with ⟨s', ms', hm, e1, e2⟩ | e
          · rcases List.mem_cons.1 hm with hm | hm
            · cases hm
            · exact .inl ⟨s', ms', hm, e1, e2⟩
          · exact .inr e
        | neumann b f =>
          rcases hq with ⟨s', ms', hm, e1, e2⟩ | e
          · rcases List.mem_cons.1 hm with hm | hm
            · cases hm
            · exact .inl ⟨s', ms', hm, e1, e2⟩
          · exact .inr e
    rw [b6, a4]
    exact hlast bcs _ hp (.inl hex)

/-- C91, the limit: of two penalty supports with different factors both use the second factor: the conditions of the first one are there, but
the factor that belongs to all of them is the one of the second support. -/
theorem C91_factor_false_of_code {S : Setup K} (hx : ProperBox S.xyz) (hu : ProperBox S.uvw)
    {m m' : Mesh K} {ts ts' : List (Tri K)} (hv : m.visit = some ts) (hv' : m'.visit = some ts') {mp : ModelPart K} (h : Numbered mp.conditions)
    (u u' : V3 K) {a b : K} (hab : a ≠ b) :
    ∃ mp1 mp2 new1 new2, penaltySupport S m u a mp = some mp1 ∧ mp1.conditions = mp.conditions ++ new1 ∧ mp1.penalty = some a ∧
      penaltySupport S m' u' b mp1 = some mp2 ∧ mp2.conditions = mp.conditions ++ new1 ++ new2 ∧ mp2.penalty = some b ∧
      mp2.penalty ≠ some a := by
  obtain ⟨mp1, new1, a1, a2, a3, -, -, a6, -⟩ := apply_spec (S := S) hx hu (r := .penalty m u a) ⟨ts, hv⟩ h
  obtain ⟨mp2, new2, b1, b2, -, -, -, b6, -⟩ := apply_spec (S := S) hx hu (r := .penalty m' u' b) ⟨ts', hv'⟩ a3
  refine ⟨mp1, mp2, new1, new2, a1, a2, a6, b1, by rw [b2, a2], b6, ?_⟩
  rw [b6]
  intro e
  exact hab (Option.some.inj e).symm

/-! ## C92: conditions by bounding boxes -/

omit [IsStrictOrderedRing K] in
/-- C92: a Dirichlet condition fixes exactly the requested directions of exactly the nodes that lie strictly in the box; directions that were
fixed before stay fixed and nothing else changes. -/
theorem C92_dirichlet (b : Box K) (disp : V3 Bool) (mp : ModelPart K) :
    (dirichlet b disp mp).elements = mp.elements ∧ (dirichlet b disp mp).conditions = mp.conditions ∧
    (dirichlet b disp mp).penalty = mp.penalty ∧ List.Forall₂ (fun n n' : Node K => n'.id = n.id ∧ n'.pos = n.pos ∧ n'.load = n.load ∧
      (n'.fixed.x = true ↔ n.fixed.x = true ∨ (disp.x = true ∧ StrictlyIn b n.pos)) ∧
      (n'.fixed.y = true ↔ n.fixed.y = true ∨ (disp.y = true ∧ StrictlyIn b n.pos)) ∧
      (n'.fixed.z = true ↔ n.fixed.z = true ∨ (disp.z = true ∧ StrictlyIn b n.pos))) mp.nodes (dirichlet b disp mp).nodes := by
  refine ⟨rfl, rfl, rfl, ?_⟩
  unfold dirichlet
  rw [List.forall₂_map_right_iff, List.forall₂_same]
  intro n _
  simp only [← isInside_iff]
  cases hi : isInside b n.pos with
  | true =>
    rw [if_pos rfl]
    refine ⟨rfl, rfl, rfl, ?_, ?_, ?_⟩
    · cases disp.x <;> simp
    · cases disp.y <;> simp
    · cases disp.z <;> simp
  | false => simp

/-- C92: a Neumann condition.  If no node lies strictly in the box, nothing changes.  Otherwise one point load is added for each of these
nodes, in their order and with the next ids; these nodes get the force divided by their number, all others keep their load; the new conditions
together apply exactly the force. -/
theorem C92_neumann (b : Box K) (force : V3 K) {mp : ModelPart K} (h : Numbered mp.conditions) (ho : OrderedNodes mp) :
    ((∀ n ∈ mp.nodes, ¬ StrictlyIn b n.pos) → neumann b force mp = some mp) ∧
    ((∃ n ∈ mp.nodes, StrictlyIn b n.pos) → ∃ mp' new inside, neumann b force mp = some mp' ∧ mp'.elements = mp.elements ∧
      mp'.penalty = mp.penalty ∧ mp'.conditions = mp.conditions ++ new ∧ Numbered mp'.conditions ∧
      (∀ n ∈ mp.nodes, inside n = true ↔ StrictlyIn b n.pos) ∧
      List.Forall₂ (fun (c : Cond K) n => c.kind = "PointLoadCondition3D1N" ∧ c.geom = .nodes [n.id]) new (mp.nodes.filter inside) ∧
      List.Forall₂ (fun n n' : Node K => n'.id = n.id ∧ n'.pos = n.pos ∧ n'.fixed = n.fixed ∧
        (StrictlyIn b n.pos → V3.scale ((mp.nodes.filter inside).length : K) n'.load = force) ∧ (¬ StrictlyIn b n.pos → n'.load = n.load))
        mp.nodes mp'.nodes ∧ totalForce mp' new = some force) := by
  constructor
  · intro hno
    have : insideIds b mp = [] := by
      unfold insideIds
      rw [List.map_eq_nil_iff, List.filter_eq_nil_iff]
      intro n hn hi
      exact hno n hn ((isInside_iff b n.pos).1 hi)
    unfold neumann
    exact if_pos this
  · rintro ⟨n0, hn0, hi0⟩
    have hmem0 : n0.id ∈ insideIds b mp := (insideIds_mem ho hn0).2 hi0
    have hne : insideIds b mp ≠ [] := List.ne_nil_of_mem hmem0
    have hlen : (insideIds b mp).length = (mp.nodes.filter fun n => isInside b n.pos).length := List.length_map _
    have hpos : ((insideIds b mp).length : K) ≠ 0 := by
      have : 0 < (insideIds b mp).length := List.length_pos_iff.2 hne
      exact_mod_cast this.ne'
    set f : V3 K := ⟨force.x / (insideIds b mp).length, force.y / (insideIds b mp).length, force.z / (insideIds b mp).length⟩ with hf
    have hsc : V3.scale ((insideIds b mp).length : K) f = force := by
      rw [hf]
      apply V3.ext <;> simp only [V3.scale_x, V3.scale_y, V3.scale_z] <;> field_simp
    refine ⟨_, _, fun n => isInside b n.pos, neumann_eq h hne, rfl, rfl, rfl, ext_numbered h _, fun n _ => isInside_iff b n.pos, ?_, ?_, ?_⟩
    · refine forall₂_number (fun c a i hc => hc) _ ?_
      unfold insideIds
      rw [List.map_map, List.forall₂_map_left_iff, List.forall₂_same]
      exact fun n _ => ⟨rfl, rfl⟩
    · unfold setLoads
      rw [List.forall₂_map_right_iff, List.forall₂_same]
      intro n hn
      have hiff := insideIds_mem (b := b) ho hn
      by_cases hs : n.id ∈ insideIds b mp
      · rw [if_pos hs]
        refine ⟨rfl, rfl, rfl, fun _ => ?_, fun hc => absurd (hiff.1 hs) hc⟩
        rw [← hlen]
        exact hsc
      · rw [if_neg hs]
        exact ⟨rfl, rfl, rfl, fun hc => absurd (hiff.2 hc) hs, fun _ => rfl⟩
    · unfold totalForce
      rw [mapM_some (f := fun _ => f)]
      · simp only [Option.map_some]
        rw [List.map_const', number_length, List.length_map, ← hsc]
        congr 1
        apply V3.ext <;> simp [sumV]
      · intro c hc
        obtain ⟨d, hd, i, rfl⟩ := number_mem hc
        obtain ⟨j, hj, rfl⟩ := List.mem_map.1 hd
        have hj' : j ∈ mp.nodes.map Node.id := by
          obtain ⟨n, hn, e⟩ := List.mem_map.1 hj
          exact List.mem_map.2 ⟨n, (List.mem_filter.1 hn).1, e⟩
        exact force_pointCond rfl hj hj' i

/-- C92: if no point load acts yet on a node in the box (and there is a node in it), then the force of a Neumann condition is added to the force that
acts on the model. -/
theorem C92_total_partial {b : Box K} {force F : V3 K} {mp : ModelPart K} (h : Numbered mp.conditions) (ho : OrderedNodes mp)
    (hex : ∃ n ∈ mp.nodes, StrictlyIn b n.pos) (hF : totalForce mp mp.conditions = some F)
    (hfree : ∀ c ∈ mp.conditions, ∀ i, c.geom = .nodes [i] → ∀ n ∈ mp.nodes, n.id = i → ¬ StrictlyIn b n.pos) :
    ∃ mp', neumann b force mp = some mp' ∧ totalForce mp' mp'.conditions = some (F + force) := by
  obtain ⟨mp', new, inside, e1, e2, e3, e4, e5, e6, e7, e8, e9⟩ := (C92_neumann b force h ho).2 hex
  refine ⟨mp', e1, ?_⟩
  have hold : mp.conditions.mapM (forceOf mp') = mp.conditions.mapM (forceOf mp) := by
    refine mapM_congr fun c hc => ?_
    unfold forceOf
    split
    · rfl
    · split
      · cases hg : c.geom with
        | nodes ids =>
          match ids, hg with
          | [], _ => rfl
          | [i], hg =>
            dsimp only
            rcases find_rel (fun _ _ r => r.1) i e8 with g | ⟨n, n', g1, g2, g3, g4, g5⟩
            · rw [g.1, g.2]
            · rw [g4, g5]
              simp only [Option.map_some]
              rw [g3.2.2.2.2 (hfree c hc i hg n g1 g2)]
          | _ :: _ :: _, _ => rfl
        | points ps => rfl
        | surface t => rfl
      · rfl
  unfold totalForce at *
  rw [e4, List.mapM_append, hold]
  cases h1 : mp.conditions.mapM (forceOf mp) with
  | none => rw [h1] at hF; cases hF
  | some l1 =>
    cases h2 : new.mapM (forceOf mp') with
    | none => rw [h2] at e9; cases e9
    | some l2 =>
      rw [h1] at hF
      rw [h2] at e9
      simp only [Option.map_some, Option.some.injEq] at hF e9
      change some (sumV (l1 ++ l2)) = _
      rw [sumV_append, hF, e9]

/-- C92, the limit: the loads of two Neumann conditions on the same nodes do not add up: with the same box, the model carries twice the second
force and nothing of the first one. -/
theorem C92_overlap_false_of_code {b : Box K} (f g : V3 K) {mp : ModelPart K} (h : mp.conditions = []) (ho : OrderedNodes mp)
    (hex : ∃ n ∈ mp.nodes, StrictlyIn b n.pos) :
    ∃ mp1 mp2, neumann b f mp = some mp1 ∧ neumann b g mp1 = some mp2 ∧ totalForce mp2 mp2.conditions = some (g + g) := by
  obtain ⟨n0, hn0, hi0⟩ := hex
  have hmem0 : n0.id ∈ insideIds b mp := (insideIds_mem ho hn0).2 hi0
  have hne : insideIds b mp ≠ [] := List.ne_nil_of_mem hmem0
  have hnum : Numbered mp.conditions := by rw [h]; rfl
  have hpos : ((insideIds b mp).length : K) ≠ 0 := by
    have : 0 < (insideIds b mp).length := List.length_pos_iff.2 hne
    exact_mod_cast this.ne'
  have e1 := neumann_eq (force := f) hnum hne
  set mp1 : ModelPart K := { ext mp ((insideIds b mp).map pointCond) with
      nodes := setLoads ⟨f.x / (insideIds b mp).length, f.y / (insideIds b mp).length, f.z / (insideIds b mp).length⟩ (insideIds b mp) mp.nodes } with hmp1
  have hnum1 : Numbered mp1.conditions := ext_numbered hnum _
  have hin : insideIds b mp1 = insideIds b mp := by
    have : ∀ (F : V3 K) (ids : List Nat) (ns : List (Node K)), ((setLoads F ids ns).filter fun n => isInside b n.pos).map Node.id =
        (ns.filter fun n => isInside b n.pos).map Node.id := by
      intro F ids ns
      unfold setLoads
      rw [List.filter_map, List.map_map]
      have hc : ((fun n : Node K => isInside b n.pos) ∘ fun n => if n.id ∈ ids then { n with load := F } else n) = fun n => isInside b n.pos := by
        funext n
        simp only [Function.comp_apply]
        split <;> rfl
      rw [hc]
      refine List.map_congr_left fun n _ => ?_
      simp only [Function.comp_apply]
      split <;> rfl
    exact this _ _ _
  have e2 := neumann_eq (b := b) (force := g) hnum1 (by rw [hin]; exact hne)
  rw [hin] at e2
  refine ⟨mp1, _, e1, e2, ?_⟩
  unfold totalForce
  have hids : ∀ j ∈ insideIds b mp, j ∈ mp1.nodes.map Node.id := by
    intro j hj
    rw [hmp1]
    simp only [setLoads_ids]
    obtain ⟨n, hn, e⟩ := List.mem_map.1 hj
    exact List.mem_map.2 ⟨n, (List.mem_filter.1 hn).1, e⟩
  rw [mapM_some (f := fun _ => (⟨g.x / (insideIds b mp).length, g.y / (insideIds b mp).length, g.z / (insideIds b mp).length⟩ : V3 K))]
  · simp only [Option.map_some]
    have hl : (ext mp1 ((insideIds b mp).map pointCond)).conditions.length = (insideIds b mp).length + (insideIds b mp).length := by
      rw [ext_length, List.length_map]
      have : mp1.conditions.length = (insideIds b mp).length := by
        change (ext mp ((insideIds b mp).map pointCond)).conditions.length = _
        rw [ext_length, List.length_map, h]
        simp
      rw [this]
    rw [List.map_const', hl]
    congr 1
    apply V3.ext <;> simp [sumV] <;> field_simp <;> ring
  · intro c hc
    have hc' : c ∈ mp1.conditions ++ number (mp1.conditions.length + 1) ((insideIds b mp).map pointCond) := hc
    have : ∃ d ∈ (insideIds b mp).map (pointCond (K := K)), ∃ i, c = { d with id := i } := by
      rcases List.mem_append.1 hc' with hc' | hc'
      · have : c ∈ mp.conditions ++ number (mp.conditions.length + 1) ((insideIds b mp).map pointCond) := hc'
        rw [h, List.nil_append] at this
        exact number_mem this
      · exact number_mem hc'
    obtain ⟨d, hd, i, rfl⟩ := this
    obtain ⟨j, hj, rfl⟩ := List.mem_map.1 hd
    exact force_pointCond rfl hj (hids j hj) i

/-! ## C93: triangle meshes -/

omit [IsStrictOrderedRing K] in
/-- C93: a triangle mesh as a model part (that holds no nodes and elements yet).  The nodes have the ids 1, 2, ... and the positions of
the vertices in their order; there is one element with three nodes for each triangle, with the ids 1, 2, ..., whose nodes are at the corners of
the triangle in the same order. -/
theorem C93_mesh_to_model {m : Mesh K} {ts : List (Tri K)} (hv : m.visit = some ts) {mp : ModelPart K} (hn : mp.nodes = []) (he : mp.elements = []) :
    ∃ mp', readModelPart mp m = some mp' ∧ mp'.conditions = mp.conditions ∧ mp'.penalty = mp.penalty ∧
      mp'.nodes.map Node.id = List.range' 1 m.vertices.length ∧ mp'.nodes.map Node.pos = m.vertices ∧
      mp'.elements.map Element.id = List.range' 1 ts.length ∧
      List.Forall₂ (fun (e : Element K) t => e.kind = "ShellThinElement3D3N" ∧ TriangleOn mp' e.geom ⟨t.p1, t.p2, t.p3⟩) mp'.elements ts := by
  have e1 := createNodes_eq m.vertices 0 mp (by rw [hn]; simp)
  set ns := m.vertices.zipIdx.map fun q => nodeAt (q.2 + 1) q.1 with hns
  rw [hn, List.nil_append] at e1
  obtain ⟨new, g1, g2, g3⟩ := createTriangles_spec ns hns ts 0 { mp with nodes := ns } rfl (by
    intro e hm
    have hm' : e ∈ mp.elements := hm
    rw [he] at hm'
    cases hm') (fun t ht => visit_mem hv ht)
  refine ⟨{ mp with nodes := ns, elements := mp.elements ++ new }, ?_, rfl, rfl, ?_, ?_, ?_, ?_⟩
  · unfold readModelPart
    rw [e1]
    simp only [Option.bind_some, hv]
    exact g1
  · show ns.map Node.id = _
    rw [hns, List.map_map]
    have : (Node.id ∘ fun q : V3 K × Nat => nodeAt (q.2 + 1) q.1) = (fun i => i + 1) ∘ Prod.snd := rfl
    rw [this, ← List.map_map, List.zipIdx_map_snd]
    rw [List.range'_eq_map_range, List.range'_eq_map_range, List.map_map]
    refine List.map_congr_left fun i _ => ?_
    simp only [Function.comp_apply]
    omega
  · show ns.map Node.pos = _
    rw [hns, List.map_map]
    have : (Node.pos ∘ fun q : V3 K × Nat => nodeAt (q.2 + 1) q.1) = Prod.fst := rfl
    rw [this, List.zipIdx_map_fst]
  · show (mp.elements ++ new).map Element.id = _
    rw [he, List.nil_append, g2]
  · show List.Forall₂ _ (mp.elements ++ new) ts
    rw [he, List.nil_append]
    exact g3

/-- C93: the elements or conditions of a model part as a triangle mesh (that holds nothing yet), if all of them are triangles.  The vertices
are the positions of the nodes in their order, there is one triangle for each element or condition with the same corners and the normal of
these corners, and the mesh can be read without errors. -/
theorem C93_model_to_mesh (norm : V3 K → K) (zt : K) {mp : ModelPart K} (ho : OrderedNodes mp) {type : String} {gs : List (Geom K)}
    (ht : (type = "Elements" ∧ gs = mp.elements.map Element.geom) ∨ (type = "Conditions" ∧ gs = mp.conditions.map Cond.geom))
    {cs : List (V3 (V3 K))} (hg : List.Forall₂ (TriangleOn mp) gs cs) :
    ∃ m', readTriangleMesh norm zt ⟨[], [], []⟩ mp type = some m' ∧ m'.vertices = mp.nodes.map Node.pos ∧ m'.check = true ∧
      m'.visit = some (cs.map fun c => ⟨c.x, c.y, c.z, normal norm zt c⟩) := by
  obtain ⟨m', e1, e2, e3, e4⟩ := addTriangles_spec norm zt ho gs cs hg ⟨mp.nodes.map Node.pos, [], []⟩ [] rfl rfl rfl
  refine ⟨m', ?_, e2, e3, by simpa using e4⟩
  unfold readTriangleMesh
  dsimp only
  rw [foldl_nodes]
  rcases ht with ⟨rfl, rfl⟩ | ⟨rfl, rfl⟩
  · rw [if_pos rfl, Option.bind_some]
    exact e1
  · rw [if_neg (by decide), if_pos rfl, Option.bind_some]
    exact e1

/-- C93: a mesh that is written to an empty model part and read again has the same vertices and the same triangles with the same corners in the
same order; the normals are those of the corners. -/
theorem C93_round_trip (norm : V3 K → K) (zt : K) {m : Mesh K} {ts : List (Tri K)} (hv : m.visit = some ts) :
    ∃ mp m', readModelPart ⟨[], [], [], none⟩ m = some mp ∧ readTriangleMesh norm zt ⟨[], [], []⟩ mp "Elements" = some m' ∧
      m'.vertices = m.vertices ∧ m'.visit = some (ts.map fun t => ⟨t.p1, t.p2, t.p3, normal norm zt ⟨t.p1, t.p2, t.p3⟩⟩) := by
  obtain ⟨mp, a1, -, -, a4, a5, a6, a7⟩ := C93_mesh_to_model hv (mp := ⟨[], [], [], none⟩) rfl rfl
  have hg : List.Forall₂ (TriangleOn mp) (mp.elements.map Element.geom) (ts.map fun t => (⟨t.p1, t.p2, t.p3⟩ : V3 (V3 K))) := by
    rw [List.forall₂_map_left_iff, List.forall₂_map_right_iff]
    exact a7.imp fun _ _ h => h.2
  obtain ⟨m', b1, b2, -, b4⟩ := C93_model_to_mesh norm zt (mp := mp) (by
    unfold OrderedNodes
    rw [a4]
    exact List.pairwise_lt_range') (.inl ⟨rfl, rfl⟩) hg
  refine ⟨mp, m', a1, b1, by rw [b2, a5], ?_⟩
  rw [b4, List.map_map]
  rfl

/-- C93, the limit: reading a model part into a mesh that holds a vertex already gives triangles with other corners: the indices of the new
triangles count from the first vertex of the mesh. -/
theorem C93_append_false_of_code (norm : V3 K → K) (zt : K) : ∃ (m : Mesh K) (mp : ModelPart K) (c : V3 (V3 K)) (m' : Mesh K) (t : Tri K),
    OrderedNodes mp ∧ List.Forall₂ (TriangleOn mp) (mp.elements.map Element.geom) [c] ∧
    readTriangleMesh norm zt m mp "Elements" = some m' ∧ m'.visit = some [t] ∧ Tri.corners t ≠ c := by
  refine ⟨⟨[⟨5, 5, 5⟩], [], []⟩, ⟨[nodeAt 1 ⟨0, 0, 0⟩, nodeAt 2 ⟨1, 0, 0⟩, nodeAt 3 ⟨0, 1, 0⟩], [⟨"ShellThinElement3D3N", 1, .nodes [1, 2, 3]⟩], [], none⟩,
    ⟨⟨0, 0, 0⟩, ⟨1, 0, 0⟩, ⟨0, 1, 0⟩⟩, _, ⟨⟨5, 5, 5⟩, ⟨0, 0, 0⟩, ⟨1, 0, 0⟩, _⟩, ?_, ?_, rfl, rfl, ?_⟩
  · unfold OrderedNodes
    simp [nodeAt]
  · refine .cons ⟨1, 2, 3, rfl, ⟨nodeAt 1 ⟨0, 0, 0⟩, by simp, rfl, rfl⟩, ⟨nodeAt 2 ⟨1, 0, 0⟩, by simp, rfl, rfl⟩, ⟨nodeAt 3 ⟨0, 1, 0⟩, by simp, rfl, rfl⟩⟩ .nil
  · intro e
    have : (5 : K) = 0 := congrArg (fun v : V3 (V3 K) => v.x.x) e
    norm_num at this

/-! ## C94: elements -/

omit [IsStrictOrderedRing K] in
/-- C94: the elements of the model part are exactly the elements of the grid that have a point with positive weight, in the same order and with
the ids 1, 2, ...; each of them has exactly the points with positive weights, so that no weight is lost where all weights are
non-negative. -/
theorem C94_elements (es : List (List (Mapping.VolPoint K))) {mp : ModelPart K} (h : mp.elements = []) :
    ∃ mp', addElements es mp = some mp' ∧ mp' = { mp with elements := mp'.elements } ∧
      mp'.elements.map Element.id = List.range' 1 mp'.elements.length ∧ (∀ e ∈ mp'.elements, e.kind = "SmallDisplacementElement3D8N") ∧
      mp'.elements.map Element.geom = ((es.map fun ps => (ps.filter fun q => decide (0 < q.weight)).map fun q => (q.pos, q.weight)).filter
        fun ps => decide (ps ≠ [])).map .points := by
  obtain ⟨new, k', n1, n2, n3, n4⟩ := addLoop_spec es mp 0 (by rw [h]; simp)
  rw [h, List.nil_append] at n1
  refine ⟨{ mp with elements := new }, ?_, rfl, n2, n3, n4⟩
  unfold addElements
  rw [n1]
  rfl

omit [IsStrictOrderedRing K] in
/-- C94: elements are not added to a model part that has an element with the id 1 already: unless there is nothing to add, this is an
error. -/
theorem C94_occupied {es : List (List (Mapping.VolPoint K))} {mp : ModelPart K} (h : ∃ e ∈ mp.elements, e.id = 1)
    (hp : ∃ ps ∈ es, ∃ q ∈ ps, 0 < q.weight) : addElements es mp = none := by
  unfold addElements
  rw [Option.map_eq_none_iff]
  induction es with
  | nil => obtain ⟨_, h, _⟩ := hp; cases h
  | cons ps es ih =>
    rw [List.foldlM_cons]
    dsimp only
    by_cases he : (ps.filter fun q => decide (q.weight > 0)).map (fun q => (q.pos, q.weight)) = []
    · rw [if_pos he]
      refine ih ?_
      obtain ⟨ps', h1, q, h2, h3⟩ := hp
      rcases List.mem_cons.1 h1 with rfl | h1
      · rw [List.map_eq_nil_iff, List.filter_eq_nil_iff] at he
        exact absurd (decide_eq_true h3) (he q h2)
      · exact ⟨ps', h1, q, h2, h3⟩
    · rw [if_neg he]
      obtain ⟨e, e1, e2⟩ := h
      have : mp.elements.any (fun f => decide (f.id = 0 + 1)) = true := by
        rw [List.any_eq_true]
        exact ⟨e, e1, by simpa using e2⟩
      unfold createElement
      rw [if_pos this]
      rfl

/-! ## C95: all conditions and the model -/

/-- C95: if the settings of all conditions are complete and their meshes can be read, then the conditions are added without an error: those that
were there stay, the ids are 1, 2, ..., elements, ids and positions of nodes do not change. -/
theorem C95_conditions {S : Setup K} (hx : ProperBox S.xyz) (hu : ProperBox S.uvw) {bcs : List (BC K)} (hc : ∀ bc ∈ bcs, Complete bc)
    {mp : ModelPart K} (h : Numbered mp.conditions) : ∃ mp' new, addConditions S bcs mp = some mp' ∧ mp'.conditions = mp.conditions ++ new ∧
      Numbered mp'.conditions ∧ mp'.elements = mp.elements ∧
      mp'.nodes.map (fun n => (n.id, n.pos)) = mp.nodes.map (fun n => (n.id, n.pos)) := by
  obtain ⟨rs, a1, a2, -, -⟩ := prepare_loop S.norm bcs hc []
  obtain ⟨mp', new, b1, b2, b3, b4, b5, -, -⟩ := applyAll_spec hx hu rs a2 mp h
  refine ⟨mp', new, ?_, b2, b3, b4, b5⟩
  unfold addConditions
  rw [prepare_eq, a1, List.nil_append, Option.bind_some]
  exact b1

omit [IsStrictOrderedRing K] in
/-- C95: conditions are added one after the other, and segment after segment; each is added by the function that belongs to its type. -/
theorem C95_order (S : Setup K) (mp : ModelPart K) :
    addConditions S [] mp = some mp ∧
    (∀ as bs, addConditions S (as ++ bs) mp = (addConditions S as mp).bind (addConditions S bs)) ∧
    (∀ s m ms, addConditions S [.weak s (m :: ms)] mp = (addConditions S [.weak s [m]] mp).bind (addConditions S [.weak s ms])) ∧
    (∀ s, CompleteSettings s → addConditions S [.weak s []] mp = some mp) ∧
    (∀ m v p a d, addConditions S [.weak ⟨"PenaltySupportCondition", some v, some p, a, d⟩ [m]] mp = penaltySupport S m v p mp) ∧
    (∀ m v p a d, addConditions S [.weak ⟨"LagrangeSupportCondition", some v, p, a, d⟩ [m]] mp = lagrangeSupport S m v mp) ∧
    (∀ m v p a d, addConditions S [.weak ⟨"SurfaceLoadCondition", v, p, some a, some d⟩ [m]] mp =
      surfaceLoad S m (surfaceForce S.norm a d) mp) ∧
    (∀ m v p a d, addConditions S [.weak ⟨"PressureLoadCondition", v, p, some a, d⟩ [m]] mp = pressureLoad S m a mp) ∧
    (∀ b d, addConditions S [.dirichlet b d] mp = some (dirichlet b d mp)) ∧
    ∀ b f, addConditions S [.neumann b f] mp = neumann b f mp := by
  refine ⟨rfl, ?_, ?_, ?_, ?_, ?_, ?_, ?_, fun _ _ => rfl, fun b f => ?_⟩
  · intro as bs
    unfold addConditions
    rw [prepare_eq, prepare_eq, prepare_eq, List.foldlM_append]
    cases ha : as.foldlM (prepareStep S.norm) [] with
    | none => rfl
    | some ra =>
      change Option.bind (bs.foldlM (prepareStep S.norm) ra) _ = Option.bind (ra.foldlM _ mp) fun mp => Option.bind (bs.foldlM (prepareStep S.norm) []) _
      rw [prepareLoop_append S.norm bs ra]
      cases hb : bs.foldlM (prepareStep S.norm) [] with
      | none =>
        simp only [Option.map_none, Option.bind_none]
        cases ra.foldlM (fun mp r => Ready.apply S r mp) mp <;> rfl
      | some rb =>
        simp only [Option.map_some, Option.bind_some]
        rw [List.foldlM_append]
        rfl
  · intro s m ms
    unfold addConditions
    simp only [prepare_eq, List.foldlM_cons, List.foldlM_nil]
    by_cases ht : s.type ∈ ["PenaltySupportCondition", "LagrangeSupportCondition", "SurfaceLoadCondition", "PressureLoadCondition"]
    · have e : ∀ l acc, prepareStep S.norm acc (.weak s l) = l.foldlM (fun acc m => (handler S.norm s m).map fun r => acc ++ [r]) acc :=
        fun l acc => if_pos ht
      simp only [e, List.foldlM_cons, List.foldlM_nil]
      cases hr : handler S.norm s m with
      | none => rfl
      | some r =>
        change Option.bind (Option.bind (List.foldlM (fun acc m => (handler S.norm s m).map fun r => acc ++ [r]) [r] ms) some) _ =
          Option.bind (Option.bind (r.apply S mp) fun mp => some mp) fun mp => Option.bind (Option.bind (List.foldlM _ [] ms) some) _
        rw [segments_append S.norm s ms [r]]
        cases hb : ms.foldlM (fun acc m => (handler S.norm s m).map fun r => acc ++ [r]) [] with
        | none =>
          cases r.apply S mp <;> rfl
        | some rb =>
          change (r :: rb).foldlM (fun mp r => Ready.apply S r mp) mp = _
          rw [List.foldlM_cons]
          cases r.apply S mp <;> rfl
    · have e : ∀ l acc, prepareStep S.norm acc (.weak s l) = none := fun l acc => if_neg ht
      simp only [e]
      rfl
  · intro s hs
    have ht : s.type ∈ ["PenaltySupportCondition", "LagrangeSupportCondition", "SurfaceLoadCondition", "PressureLoadCondition"] := by
      rcases hs with ⟨e, -⟩ | ⟨e, -⟩ | ⟨e, -⟩ | ⟨e, -⟩ <;> rw [e] <;> simp
    have e : ∀ l acc, prepareStep S.norm acc (.weak s l) = l.foldlM (fun acc m => (handler S.norm s m).map fun r => acc ++ [r]) acc :=
        fun l acc => if_pos ht
    unfold addConditions
    simp only [prepare_eq, List.foldlM_cons, List.foldlM_nil, e]
    rfl
  · intro m v p a d
    exact Option.bind_fun_some (penaltySupport S m v p mp)
  · intro m v p a d
    exact Option.bind_fun_some (lagrangeSupport S m v mp)
  · intro m v p a d
    exact Option.bind_fun_some (surfaceLoad S m (surfaceForce S.norm a d) mp)
  · intro m v p a d
    exact Option.bind_fun_some (pressureLoad S m a mp)
  · exact Option.bind_fun_some (neumann b f mp)

omit [IsStrictOrderedRing K] in
/-- C95: a condition with an unknown type is an error, wherever it is in the list. -/
theorem C95_unknown (S : Setup K) {bcs : List (BC K)} {s : CondSettings K} {ms : List (Mesh K)} (h : BC.weak s ms ∈ bcs)
    (hs : s.type ≠ "PenaltySupportCondition" ∧ s.type ≠ "LagrangeSupportCondition" ∧ s.type ≠ "SurfaceLoadCondition" ∧
      s.type ≠ "PressureLoadCondition") (mp : ModelPart K) : addConditions S bcs mp = none := by
  unfold addConditions
  rw [prepare_eq, prepare_none S.norm bcs [] ⟨s, ms, h, by simpa using hs⟩]
  rfl

/-- C95: the model of an analysis.  Elements and conditions that were in the model part are removed; the new elements are those of the
grid; conditions have the ids 1, 2, ...; and the nodes get degrees of freedom for Lagrange multipliers if a condition with Lagrange multipliers
is in the model (`types` are the types of all conditions in the settings; the conditions are among them). -/
theorem C95_model {S : Setup K} (hx : ProperBox S.xyz) (hu : ProperBox S.uvw) {types : List String} (es : List (List (Mapping.VolPoint K)))
    {bcs : List (BC K)} (hc : ∀ bc ∈ bcs, Complete bc) (ht : ∀ s ms, BC.weak s ms ∈ bcs → s.type ∈ types) (mp : ModelPart K) :
    ∃ mp' dof, modifyGeometry S types es bcs mp = some (mp', dof) ∧ Numbered mp'.conditions ∧
      mp'.elements.map Element.geom = ((es.map fun ps => (ps.filter fun q => decide (0 < q.weight)).map fun q => (q.pos, q.weight)).filter
        fun ps => decide (ps ≠ [])).map .points ∧
      mp'.elements.map Element.id = List.range' 1 mp'.elements.length ∧
      mp'.nodes.map (fun n => (n.id, n.pos)) = mp.nodes.map (fun n => (n.id, n.pos)) ∧
      (∀ d ∈ ["DISPLACEMENT_X", "DISPLACEMENT_Y", "DISPLACEMENT_Z"], d ∈ dof) ∧
      ((∃ c ∈ mp'.conditions, c.kind = "SupportLagrangeCondition") →
        ∀ d ∈ ["VECTOR_LAGRANGE_MULTIPLIER_X", "VECTOR_LAGRANGE_MULTIPLIER_Y", "VECTOR_LAGRANGE_MULTIPLIER_Z"], d ∈ dof) ∧
      (("LagrangeSupportCondition" ∉ types) →
        ∀ d ∈ ["VECTOR_LAGRANGE_MULTIPLIER_X", "VECTOR_LAGRANGE_MULTIPLIER_Y", "VECTOR_LAGRANGE_MULTIPLIER_Z"], d ∉ dof) := by
  obtain ⟨mp1, e1, e2, e3, -, e5⟩ := C94_elements es (mp := removeConditions (removeElements mp)) rfl
  have hc1 : mp1.conditions = [] := by rw [e2]; rfl
  have hn1 : mp1.nodes = mp.nodes := by rw [e2]; rfl
  obtain ⟨rs, a1, a2, a3, -⟩ := prepare_loop S.norm bcs hc []
  obtain ⟨mp', new, b1, b2, b3, b4, b5, -, b7⟩ := applyAll_spec hx hu rs a2 mp1 (by rw [hc1]; rfl)
  refine ⟨mp', dofs (lagrangeRequired types), ?_, b3, by rw [b4, e5], by rw [b4, e3], ?_, ?_, ?_, ?_⟩
  · unfold modifyGeometry
    rw [e1, Option.bind_some]
    unfold addConditions
    rw [prepare_eq, a1, List.nil_append, Option.bind_some, b1]
    rfl
  · have : skeleton mp' = skeleton mp1 := b5
    unfold skeleton at this
    rw [this, hn1]
  · intro d hd
    exact List.mem_append_left _ hd
  · rintro ⟨c, hc', hk⟩ d hd
    rw [b2, hc1, List.nil_append] at hc'
    obtain ⟨m, v, hr⟩ := b7 c hc' hk
    obtain ⟨s, ms, g1, g2⟩ := a3 m v hr
    have : lagrangeRequired types = true := (lagrangeRequired_eq types).2 (g2 ▸ ht s ms g1)
    unfold dofs
    rw [this]
    exact List.mem_append_right _ hd
  · intro hno d hd
    have : lagrangeRequired types = false := by
      rw [← Bool.not_eq_true]
      exact fun h => hno ((lagrangeRequired_eq types).1 h)
    unfold dofs
    rw [this]
    simp only [List.mem_cons, List.not_mem_nil, or_false] at hd
    rcases hd with rfl | rfl | rfl <;> simp

/-! ## Examples -/

/-- The hypotheses on the setup hold for real numbers with the usual norm. -/
example : ∃ S : Setup ℝ, IsNorm3 S.norm ∧ 0 ≤ S.zt ∧ S.zt < 6 / 10 ^ 14 ∧ 0 ≤ S.eps ∧ 0 < S.root3 ∧ ProperBox S.xyz ∧ ProperBox S.uvw :=
  ⟨⟨fun v => √(v.x ^ 2 + v.y ^ 2 + v.z ^ 2), 1 / 10 ^ 14, 1 / 10 ^ 14, √3, ⟨⟨0, 0, 0⟩, ⟨2, 1, 3⟩⟩, ⟨⟨0, 0, 0⟩, ⟨1, 1, 1⟩⟩, fun _ => 1⟩,
    fun v => ⟨Real.sqrt_nonneg _, Real.sq_sqrt (by positivity)⟩, by norm_num, by norm_num, by norm_num, by positivity,
    ⟨by norm_num, by norm_num, by norm_num⟩, ⟨by norm_num, by norm_num, by norm_num⟩⟩

/-- A setup for computations. -/
def exSetup : Setup ℚ :=
  ⟨exNorm, 1 / 10 ^ 14, 1 / 10 ^ 14, 17 / 10, ⟨⟨0, 0, 0⟩, ⟨2, 1, 3⟩⟩, ⟨⟨0, 0, 0⟩, ⟨1, 1, 1⟩⟩, fun _ => 1⟩

/-- A model part with three nodes, an element and a condition. -/
def exPart : ModelPart ℚ :=
  ⟨[⟨1, ⟨0, 0, 0⟩, ⟨false, false, false⟩, ⟨0, 0, 0⟩⟩, ⟨4, ⟨1, 1 / 2, 1⟩, ⟨false, true, false⟩, ⟨0, 0, 0⟩⟩,
    ⟨7, ⟨1, 1 / 2, 2⟩, ⟨false, false, false⟩, ⟨0, 0, 0⟩⟩], [⟨"Old", 3, .nodes [1, 4]⟩], [⟨"Old", 1, .nodes [4], .unset, none⟩], none⟩

/-- Conditions of all types. -/
def exBCs : List (BC ℚ) :=
  [.weak ⟨"PenaltySupportCondition", some ⟨0, 0, 1⟩, some 100, none, none⟩ [exTetra],
   .weak ⟨"SurfaceLoadCondition", none, none, some 5, some ⟨0, 0, 2⟩⟩ [exTetra, exTetra],
   .neumann ⟨⟨0, 0, 0⟩, ⟨2, 1, 3⟩⟩ ⟨4, 0, 2⟩,
   .weak ⟨"LagrangeSupportCondition", some ⟨0, 0, 1⟩, none, none, none⟩ [exTetra],
   .weak ⟨"PressureLoadCondition", none, none, some 3, none⟩ [exTetra],
   .dirichlet ⟨⟨0, 0, 0⟩, ⟨2, 1, 3⟩⟩ ⟨true, false, true⟩]

example : ∀ bc ∈ exBCs, Complete bc := by
  have hv : ∃ ts, exTetra.visit = some ts := Option.isSome_iff_exists.1 (by decide +kernel)
  intro bc hbc
  simp only [exBCs, List.mem_cons, List.not_mem_nil, or_false] at hbc
  rcases hbc with rfl | rfl | rfl | rfl | rfl | rfl <;> simp [Complete, CompleteSettings, hv]

example : ProperBox exSetup.xyz ∧ ProperBox exSetup.uvw ∧ Numbered exPart.conditions ∧ OrderedNodes exPart := by
  refine ⟨⟨by decide +kernel, by decide +kernel, by decide +kernel⟩, ⟨by decide +kernel, by decide +kernel, by decide +kernel⟩, ?_, ?_⟩
  · unfold Numbered; decide
  · unfold OrderedNodes; decide

/-- The whole model: 4 penalty supports, 24 loads, 2 point loads, 4 supports with multipliers and 12 loads; the two nodes in the box are fixed and
carry half of the force. -/
example : ((modifyGeometry exSetup ["PenaltySupportCondition", "LagrangeSupportCondition"]
    [[⟨⟨1, 1, 1⟩, 2⟩, ⟨⟨1, 1, 2⟩, 0⟩], [⟨⟨0, 1, 1⟩, 0⟩], [⟨⟨1, 0, 1⟩, 3⟩]] exBCs exPart).map fun r =>
      decide ((r.1.conditions.map fun c => c.kind) = List.replicate 4 "SupportPenaltyCondition" ++ List.replicate 24 "LoadCondition" ++
        List.replicate 2 "PointLoadCondition3D1N" ++ List.replicate 4 "SupportLagrangeCondition" ++ List.replicate 12 "LoadCondition") &&
      decide (r.1.elements = [⟨"SmallDisplacementElement3D8N", 1, .points [(⟨1, 1, 1⟩, 2)]⟩,
        ⟨"SmallDisplacementElement3D8N", 2, .points [(⟨1, 0, 1⟩, 3)]⟩] ∧
      r.1.nodes = [⟨1, ⟨0, 0, 0⟩, ⟨false, false, false⟩, ⟨0, 0, 0⟩⟩, ⟨4, ⟨1, 1 / 2, 1⟩, ⟨true, true, true⟩, ⟨2, 0, 1⟩⟩,
        ⟨7, ⟨1, 1 / 2, 2⟩, ⟨true, false, true⟩, ⟨2, 0, 1⟩⟩] ∧ r.1.penalty = some 100 ∧ r.2.length = 6)) = some true := by decide +kernel

/-- Two penalty supports with the factors 100 and 1: all eight conditions use the factor 1. -/
example : ((addConditions exSetup [.weak ⟨"PenaltySupportCondition", some ⟨0, 0, 1⟩, some 100, none, none⟩ [exTetra],
    .weak ⟨"PenaltySupportCondition", some ⟨0, 0, 2⟩, some 1, none, none⟩ [exTetra]] ⟨[], [], [], none⟩).map fun mp =>
      (mp.conditions.map Cond.displacement, mp.penalty)) =
      some (List.replicate 4 (some ⟨0, 0, 1⟩) ++ List.replicate 4 (some ⟨0, 0, 2⟩), some 1) := by decide +kernel

/-- Mesh exchange with a mesh of four triangles; a pressure on a closed mesh. -/
example : ((readModelPart ⟨[], [], [], none⟩ exTetra).map fun mp => (mp.nodes.length, mp.elements.map Element.geom)) =
      some (4, [.nodes [1, 3, 2], .nodes [1, 2, 4], .nodes [1, 4, 3], .nodes [2, 3, 4]]) ∧
    exTetra.visit.all (fun ts => decide (ClosedSurface ts)) = true ∧
    ((pressureLoad exSetup exTetra 3 ⟨[], [], [], none⟩).bind fun mp => totalForce mp mp.conditions) = some ⟨0, 0, 0⟩ := by decide +kernel

end QuESo.Kratos
