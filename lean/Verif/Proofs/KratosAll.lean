import Verif.Proofs.KratosBox
import Verif.Proofs.KratosMesh

/-!
# Lemmas about elements and all conditions together
-/
namespace QuESo.Kratos
open QuESo.MeshUtil QuESo.TriRule QuESo.BSpline QuESo.Spec QuESo.KratosSpec
variable {K : Type} [Field K] [LinearOrder K]

/-! ## Elements -/

/-- The points with positive weights. -/
def positive (ps : List (Mapping.VolPoint K)) : List (V3 K × K) := (ps.filter fun q => decide (q.weight > 0)).map fun q => (q.pos, q.weight)

theorem addLoop_spec : ∀ (es : List (List (Mapping.VolPoint K))) (mp : ModelPart K) (k : Nat), (∀ e ∈ mp.elements, e.id ≤ k) →
    ∃ new k', es.foldlM (fun (s : ModelPart K × Nat) ps =>
      let pts := (ps.filter fun q => decide (q.weight > 0)).map fun q => (q.pos, q.weight)
      if pts = [] then some s
      else (createElement ⟨"SmallDisplacementElement3D8N", s.2 + 1, .points pts⟩ s.1).map fun mp => (mp, s.2 + 1)) (mp, k) =
        some ({ mp with elements := mp.elements ++ new }, k') ∧ new.map Element.id = List.range' (k + 1) new.length ∧
      (∀ e ∈ new, e.kind = "SmallDisplacementElement3D8N") ∧
      new.map Element.geom = ((es.map positive).filter fun ps => decide (ps ≠ [])).map .points
  | [], mp, k, _ => ⟨[], k, by simp, rfl, by simp, rfl⟩
  | ps :: es, mp, k, h => by
    by_cases hp : positive ps = []
    · obtain ⟨new, k', n1, n2, n3, n4⟩ := addLoop_spec es mp k h
      refine ⟨new, k', ?_, n2, n3, ?_⟩
      · rw [List.foldlM_cons]
        have : (ps.filter fun q => decide (q.weight > 0)).map (fun q => (q.pos, q.weight)) = [] := hp
        simp only [this, if_true]
        exact n1
      · rw [n4, List.map_cons, List.filter_cons, hp]
        rfl
    · have e : createElement ⟨"SmallDisplacementElement3D8N", k + 1, .points (positive ps)⟩ mp =
          some { mp with elements := mp.elements ++ [⟨"SmallDisplacementElement3D8N", k + 1, .points (positive ps)⟩] } := by
        refine createElement_next (fun f hf => ?_) trivial
        have := h f hf
        show f.id < k + 1
        omega
      obtain ⟨new, k', n1, n2, n3, n4⟩ := addLoop_spec es
        { mp with elements := mp.elements ++ [⟨"SmallDisplacementElement3D8N", k + 1, .points (positive ps)⟩] } (k + 1) (by
          intro e hm
          rcases List.mem_append.1 hm with hm | hm
          · have := h e hm; omega
          · rw [List.mem_singleton.1 hm])
      refine ⟨⟨"SmallDisplacementElement3D8N", k + 1, .points (positive ps)⟩ :: new, k', ?_, ?_, ?_, ?_⟩
      · rw [List.foldlM_cons]
        have hp' : (ps.filter fun q => decide (q.weight > 0)).map (fun q => (q.pos, q.weight)) = positive ps := rfl
        simp only [hp']
        rw [if_neg hp, e]
        change List.foldlM _ _ _ = _
        rw [n1]
        simp
      · rw [List.map_cons, n2, List.length_cons, List.range'_succ]
      · intro e he
        rcases List.mem_cons.1 he with rfl | he
        · rfl
        · exact n3 e he
      · rw [List.map_cons, n4, List.map_cons, List.filter_cons, if_pos (by simpa using hp)]
        rfl

/-! ## All conditions -/

/-- The mesh of an entry can be read. -/
def Ready.Readable : Ready K → Prop
  | .penalty m _ _ => ∃ ts, m.visit = some ts
  | .lagrange m _ => ∃ ts, m.visit = some ts
  | .surface m _ => ∃ ts, m.visit = some ts
  | .pressure m _ => ∃ ts, m.visit = some ts
  | _ => True

/-- The penalty factor after an entry. -/
def Ready.factor : Ready K → Option K → Option K
  | .penalty _ _ p, _ => some p
  | _, q => q

/-- The ids and positions of the nodes. -/
def skeleton (mp : ModelPart K) : List (Nat × V3 K) := mp.nodes.map fun n => (n.id, n.pos)

theorem skeleton_ordered {mp mp' : ModelPart K} (h : skeleton mp' = skeleton mp) (ho : OrderedNodes mp) : OrderedNodes mp' := by
  unfold OrderedNodes at *
  have e : ∀ mp : ModelPart K, mp.nodes.map Node.id = (skeleton mp).map Prod.fst := by
    intro mp
    unfold skeleton
    rw [List.map_map]
    rfl
  rwa [e, h, ← e]

variable [IsStrictOrderedRing K]

theorem apply_spec {S : Setup K} (hx : ProperBox S.xyz) (hu : ProperBox S.uvw) {r : Ready K} (hr : r.Readable) {mp : ModelPart K}
    (h : Numbered mp.conditions) : ∃ mp' new, r.apply S mp = some mp' ∧ mp'.conditions = mp.conditions ++ new ∧ Numbered mp'.conditions ∧
      mp'.elements = mp.elements ∧ skeleton mp' = skeleton mp ∧ mp'.penalty = r.factor mp.penalty ∧
      ∀ c ∈ new, c.kind = "SupportLagrangeCondition" → ∃ m v, r = .lagrange m v := by
  have hload : ∀ (force : Mapping.BndPoint K → Value (V3 K)) (ts : List (Tri K)),
      ∀ c ∈ number (mp.conditions.length + 1) (ts.flatMap (loadConds S force)), c.kind = "LoadCondition" := by
    intro force ts c hc
    obtain ⟨d, hd, i, rfl⟩ := number_mem hc
    rw [loadConds_eq, List.mem_flatMap] at hd
    obtain ⟨t, _, hd⟩ := hd
    obtain ⟨p, _, rfl⟩ := List.mem_map.1 hd
    rfl
  have hsup : ∀ (kind : String) (u : V3 K) (ts : List (Tri K)),
      ∀ c ∈ number (mp.conditions.length + 1) (ts.flatMap (supportConds S kind u)), c.kind = kind := by
    intro kind u ts c hc
    obtain ⟨d, hd, i, rfl⟩ := number_mem hc
    rw [supportConds_eq] at hd
    obtain ⟨t, _, rfl⟩ := List.mem_map.1 hd
    rfl
  have hgen : ∀ (force : Mapping.BndPoint K → Value (V3 K)) (ts : List (Tri K)), ∃ mp' new,
      (loadLoop S force ts (mp, mp.conditions.length + 1)).map Prod.fst = some mp' ∧ mp'.conditions = mp.conditions ++ new ∧
      Numbered mp'.conditions ∧ mp'.elements = mp.elements ∧ skeleton mp' = skeleton mp ∧ mp'.penalty = mp.penalty ∧
      ∀ c ∈ new, c.kind = "LoadCondition" := by
    intro force ts
    refine ⟨_, _, ?_, rfl, ext_numbered h (ts.flatMap (loadConds S force)), rfl, rfl, rfl, hload force ts⟩
    rw [loadLoop_eq hx hu _ ts h]
    rfl
  cases r with
  | penalty m v p =>
    obtain ⟨ts, hv⟩ := hr
    have := supportLoop_eq hx hu "SupportPenaltyCondition" v ts (mp := { mp with penalty := some p }) h
    refine ⟨_, _, ?_, rfl, ext_numbered (mp := { mp with penalty := some p }) h (ts.flatMap (supportConds S "SupportPenaltyCondition" v)), rfl, rfl, rfl, ?_⟩
    · unfold Ready.apply penaltySupport
      simp only [hv, Option.bind_some]
      rw [this]
      rfl
    · intro c hc hk
      have := hsup _ _ _ c hc
      rw [this] at hk
      exact absurd hk (by decide)
  | lagrange m v =>
    obtain ⟨ts, hv⟩ := hr
    refine ⟨_, _, ?_, rfl, ext_numbered h (ts.flatMap (supportConds S "SupportLagrangeCondition" v)), rfl, rfl, rfl, fun _ _ _ => ⟨m, v, rfl⟩⟩
    unfold Ready.apply lagrangeSupport
    simp only [hv, Option.bind_some]
    rw [supportLoop_eq hx hu "SupportLagrangeCondition" v ts h]
    rfl
  | surface m f =>
    obtain ⟨ts, hv⟩ := hr
    have : ∃ mp' new, Ready.apply S (.surface m f) mp = some mp' ∧ mp'.conditions = mp.conditions ++ new ∧ Numbered mp'.conditions ∧
        mp'.elements = mp.elements ∧ skeleton mp' = skeleton mp ∧ mp'.penalty = mp.penalty ∧ ∀ c ∈ new, c.kind = "LoadCondition" := by
      simp only [Ready.apply, surfaceLoad, hv, Option.bind_some]
      exact hgen _ ts
    obtain ⟨mp', new, a1, a2, a3, a4, a5, a6, a7⟩ := this
    refine ⟨mp', new, a1, a2, a3, a4, a5, a6, fun c hc hk => ?_⟩
    rw [a7 c hc] at hk
    exact absurd hk (by decide)
  | pressure m a =>
    obtain ⟨ts, hv⟩ := hr
    have : ∃ mp' new, Ready.apply S (.pressure m a) mp = some mp' ∧ mp'.conditions = mp.conditions ++ new ∧ Numbered mp'.conditions ∧
        mp'.elements = mp.elements ∧ skeleton mp' = skeleton mp ∧ mp'.penalty = mp.penalty ∧ ∀ c ∈ new, c.kind = "LoadCondition" := by
      simp only [Ready.apply, pressureLoad, hv, Option.bind_some]
      exact hgen _ ts
    obtain ⟨mp', new, a1, a2, a3, a4, a5, a6, a7⟩ := this
    refine ⟨mp', new, a1, a2, a3, a4, a5, a6, fun c hc hk => ?_⟩
    rw [a7 c hc] at hk
    exact absurd hk (by decide)
  | dirichlet b d =>
    refine ⟨_, [], rfl, (List.append_nil _).symm, h, rfl, ?_, rfl, by simp⟩
    unfold skeleton Kratos.dirichlet
    rw [List.map_map]
    refine List.map_congr_left fun n _ => ?_
    simp only [Function.comp_apply]
    split <;> rfl
  | neumann b f =>
    by_cases hne : insideIds b mp = []
    · refine ⟨mp, [], ?_, (List.append_nil _).symm, h, rfl, rfl, rfl, by simp⟩
      unfold Ready.apply Kratos.neumann
      exact if_pos hne
    · refine ⟨_, _, neumann_eq h hne, rfl, ext_numbered h _, rfl, ?_, rfl, ?_⟩
      · unfold skeleton setLoads
        simp only [List.map_map]
        refine List.map_congr_left fun n _ => ?_
        simp only [Function.comp_apply]
        split <;> rfl
      · intro c hc hk
        obtain ⟨d, hd, i, rfl⟩ := number_mem hc
        obtain ⟨j, _, rfl⟩ := List.mem_map.1 hd
        have hk' : "PointLoadCondition3D1N" = "SupportLagrangeCondition" := hk
        exact absurd hk' (by decide)

theorem applyAll_spec {S : Setup K} (hx : ProperBox S.xyz) (hu : ProperBox S.uvw) : ∀ (rs : List (Ready K)), (∀ r ∈ rs, r.Readable) →
    ∀ (mp : ModelPart K), Numbered mp.conditions → ∃ mp' new, rs.foldlM (fun mp r => r.apply S mp) mp = some mp' ∧
      mp'.conditions = mp.conditions ++ new ∧ Numbered mp'.conditions ∧ mp'.elements = mp.elements ∧ skeleton mp' = skeleton mp ∧
      mp'.penalty = rs.foldl (fun q r => r.factor q) mp.penalty ∧
      ∀ c ∈ new, c.kind = "SupportLagrangeCondition" → ∃ m v, Ready.lagrange m v ∈ rs
  | [], _, mp, h => ⟨mp, [], rfl, (List.append_nil _).symm, h, rfl, rfl, rfl, by simp⟩
  | r :: rs, hr, mp, h => by
    obtain ⟨mp1, new1, a1, a2, a3, a4, a5, a6, a7⟩ := apply_spec hx hu (hr r (by simp)) h
    obtain ⟨mp2, new2, b1, b2, b3, b4, b5, b6, b7⟩ := applyAll_spec hx hu rs (fun q hq => hr q (by simp [hq])) mp1 a3
    refine ⟨mp2, new1 ++ new2, ?_, ?_, b3, b4.trans a4, b5.trans a5, ?_, ?_⟩
    · rw [List.foldlM_cons, a1]
      exact b1
    · rw [b2, a2, List.append_assoc]
    · rw [b6, a6, List.foldl_cons]
    · intro c hc hk
      rcases List.mem_append.1 hc with hc | hc
      · obtain ⟨m, v, e⟩ := a7 c hc hk
        exact ⟨m, v, by simp [e]⟩
      · obtain ⟨m, v, e⟩ := b7 c hc hk
        exact ⟨m, v, by simp [e]⟩

/-! ## Preparation -/

omit [IsStrictOrderedRing K] in
theorem segments_eq {norm : V3 K → K} {s : CondSettings K} {r : Mesh K → Ready K} (h : ∀ m, handler norm s m = some (r m)) :
    ∀ (ms : List (Mesh K)) (acc : List (Ready K)),
      ms.foldlM (fun acc m => (handler norm s m).map fun q => acc ++ [q]) acc = some (acc ++ ms.map r)
  | [], acc => by simp
  | m :: ms, acc => by
    rw [List.foldlM_cons, h m]
    change List.foldlM _ (acc ++ [r m]) ms = _
    rw [segments_eq h ms]
    simp

omit [IsStrictOrderedRing K] in
theorem handler_complete {norm : V3 K → K} {s : CondSettings K} (h : CompleteSettings s) : ∃ r : Mesh K → Ready K,
    (∀ m, handler norm s m = some (r m)) ∧ (∀ m, (∃ ts, m.visit = some ts) → (r m).Readable) ∧
    (∀ m m' v, r m = .lagrange m' v → s.type = "LagrangeSupportCondition") ∧
    ∀ m q, (r m).factor q = if s.type = "PenaltySupportCondition" then s.penalty else q := by
  obtain ⟨type, value, penalty, modulus, direction⟩ := s
  unfold CompleteSettings at h
  rcases h with ⟨h, h1, h2⟩ | ⟨h, h1⟩ | ⟨h, h1, h2⟩ | ⟨h, h1⟩
  · obtain ⟨v, rfl⟩ := Option.isSome_iff_exists.1 h1
    obtain ⟨p, rfl⟩ := Option.isSome_iff_exists.1 h2
    obtain rfl : type = _ := h
    exact ⟨fun m => .penalty m v p, fun m => rfl, fun m hm => hm, (fun m m' v' e => by cases e), fun m q => rfl⟩
  · obtain ⟨v, rfl⟩ := Option.isSome_iff_exists.1 h1
    obtain rfl : type = _ := h
    exact ⟨fun m => .lagrange m v, fun m => rfl, fun m hm => hm, fun m m' v' e => rfl, fun m q => rfl⟩
  · obtain ⟨v, rfl⟩ := Option.isSome_iff_exists.1 h1
    obtain ⟨p, rfl⟩ := Option.isSome_iff_exists.1 h2
    obtain rfl : type = _ := h
    exact ⟨fun m => .surface m _, fun m => rfl, fun m hm => hm, (fun m m' v' e => by cases e), fun m q => rfl⟩
  · obtain ⟨v, rfl⟩ := Option.isSome_iff_exists.1 h1
    obtain rfl : type = _ := h
    exact ⟨fun m => .pressure m v, fun m => rfl, fun m hm => hm, (fun m m' v' e => by cases e), fun m q => rfl⟩

/-- The penalty factor after a condition. -/
def BC.factor : BC K → Option K → Option K
  | .weak s segments, q => if s.type = "PenaltySupportCondition" ∧ segments ≠ [] then s.penalty else q
  | _, q => q

/-- The step of the preparation. -/
def prepareStep (norm : V3 K → K) (acc : List (Ready K)) (bc : BC K) : Option (List (Ready K)) :=
  match bc with
  | .weak s segments =>
    if s.type ∈ ["PenaltySupportCondition", "LagrangeSupportCondition", "SurfaceLoadCondition", "PressureLoadCondition"] then
      segments.foldlM (fun acc m => (handler norm s m).map fun r => acc ++ [r]) acc
    else none
  | .dirichlet b d => some (acc ++ [.dirichlet b d])
  | .neumann b f => some (acc ++ [.neumann b f])

omit [IsStrictOrderedRing K] in
theorem prepareStep_complete (norm : V3 K → K) {bc : BC K} (h : Complete bc) (acc : List (Ready K)) : ∃ rs, prepareStep norm acc bc = some (acc ++ rs) ∧
    (∀ r ∈ rs, r.Readable) ∧ (∀ m v, Ready.lagrange m v ∈ rs → ∃ s ms, bc = .weak s ms ∧ s.type = "LagrangeSupportCondition") ∧
    ∀ q, rs.foldl (fun q r => r.factor q) q = bc.factor q := by
  cases bc with
  | weak s ms =>
    obtain ⟨hc, hm⟩ := h
    obtain ⟨r, r1, r2, r3, r4⟩ := handler_complete (norm := norm) hc
    refine ⟨ms.map r, ?_, ?_, ?_, ?_⟩
    · have ht : s.type ∈ ["PenaltySupportCondition", "LagrangeSupportCondition", "SurfaceLoadCondition", "PressureLoadCondition"] := by
        rcases hc with ⟨e, -⟩ | ⟨e, -⟩ | ⟨e, -⟩ | ⟨e, -⟩ <;> rw [e] <;> simp
      unfold prepareStep
      simp only
      rw [if_pos ht, segments_eq r1]
    · intro x hx
      obtain ⟨m, hm', rfl⟩ := List.mem_map.1 hx
      exact r2 m (hm m hm')
    · intro m v hx
      obtain ⟨m', _, e⟩ := List.mem_map.1 hx
      exact ⟨s, ms, rfl, r3 _ _ _ e⟩
    · intro q
      rw [List.foldl_map]
      simp only [r4, BC.factor]
      by_cases hp : s.type = "PenaltySupportCondition"
      · simp only [hp, if_true, true_and]
        induction ms generalizing q with
        | nil => simp
        | cons m ms ih =>
          rw [List.foldl_cons, ih (fun m hm' => hm m (by simp [hm']))]
          simp
      · simp only [hp, if_false, false_and]
        induction ms with
        | nil => rfl
        | cons m ms ih => exact ih fun m hm' => hm m (by simp [hm'])
  | dirichlet b d => exact ⟨[.dirichlet b d], rfl, by simp [Ready.Readable], by simp, fun q => rfl⟩
  | neumann b f => exact ⟨[.neumann b f], rfl, by simp [Ready.Readable], by simp, fun q => rfl⟩

omit [IsStrictOrderedRing K] in
theorem prepare_loop (norm : V3 K → K) : ∀ (bcs : List (BC K)), (∀ bc ∈ bcs, Complete bc) → ∀ acc : List (Ready K),
    ∃ rs, bcs.foldlM (prepareStep norm) acc = some (acc ++ rs) ∧ (∀ r ∈ rs, r.Readable) ∧
    (∀ m v, Ready.lagrange m v ∈ rs → ∃ s ms, BC.weak s ms ∈ bcs ∧ s.type = "LagrangeSupportCondition") ∧
    ∀ q, rs.foldl (fun q r => r.factor q) q = bcs.foldl (fun q bc => bc.factor q) q
  | [], _, acc => ⟨[], by simp, by simp, by simp, fun q => rfl⟩
  | bc :: bcs, h, acc => by
    obtain ⟨rs, a1, a2, a3, a4⟩ := prepareStep_complete norm (h bc (by simp)) acc
    obtain ⟨rs', b1, b2, b3, b4⟩ := prepare_loop norm bcs (fun b hb => h b (by simp [hb])) (acc ++ rs)
    refine ⟨rs ++ rs', ?_, ?_, ?_, ?_⟩
    · rw [List.foldlM_cons, a1]
      change List.foldlM _ (acc ++ rs) bcs = _
      rw [b1, List.append_assoc]
    · intro r hr
      rcases List.mem_append.1 hr with hr | hr
      · exact a2 r hr
      · exact b2 r hr
    · intro m v hx
      rcases List.mem_append.1 hx with hx | hx
      · obtain ⟨s, ms, e1, e2⟩ := a3 m v hx
        exact ⟨s, ms, by simp [e1], e2⟩
      · obtain ⟨s, ms, e1, e2⟩ := b3 m v hx
        exact ⟨s, ms, by simp [e1], e2⟩
    · intro q
      rw [List.foldl_append, a4, b4, List.foldl_cons]

omit [IsStrictOrderedRing K] in
theorem prepare_eq (norm : V3 K → K) (bcs : List (BC K)) : prepare norm bcs = bcs.foldlM (prepareStep norm) [] := rfl

omit [IsStrictOrderedRing K] in
theorem prepare_none (norm : V3 K → K) : ∀ (bcs : List (BC K)) (acc : List (Ready K)), (∃ s ms, BC.weak s ms ∈ bcs ∧
    s.type ∉ ["PenaltySupportCondition", "LagrangeSupportCondition", "SurfaceLoadCondition", "PressureLoadCondition"]) →
    bcs.foldlM (prepareStep norm) acc = none
  | [], _, h => by
    obtain ⟨_, _, h, _⟩ := h
    cases h
  | bc :: bcs, acc, h => by
    rw [List.foldlM_cons]
    obtain ⟨s, ms, h1, h2⟩ := h
    rcases List.mem_cons.1 h1 with rfl | h1
    · have : prepareStep norm acc (.weak s ms) = none := if_neg h2
      rw [this]
      rfl
    · cases e : prepareStep norm acc bc with
      | none => rfl
      | some a => exact prepare_none norm bcs a ⟨s, ms, h1, h2⟩

omit [IsStrictOrderedRing K] in
theorem segments_append (norm : V3 K → K) (s : CondSettings K) : ∀ (ms : List (Mesh K)) (acc : List (Ready K)),
    ms.foldlM (fun acc m => (handler norm s m).map fun r => acc ++ [r]) acc =
      (ms.foldlM (fun acc m => (handler norm s m).map fun r => acc ++ [r]) []).map fun l => acc ++ l
  | [], acc => by simp
  | m :: ms, acc => by
    rw [List.foldlM_cons, List.foldlM_cons]
    cases handler norm s m with
    | none => rfl
    | some r =>
      change List.foldlM _ (acc ++ [r]) ms = Option.map _ (List.foldlM _ [r] ms)
      rw [segments_append norm s ms (acc ++ [r]), segments_append norm s ms [r], Option.map_map]
      congr 1
      funext l
      simp

omit [IsStrictOrderedRing K] in
theorem prepareStep_append (norm : V3 K → K) (bc : BC K) (acc : List (Ready K)) :
    prepareStep norm acc bc = (prepareStep norm [] bc).map fun l => acc ++ l := by
  cases bc with
  | weak s ms =>
    unfold prepareStep
    dsimp only
    split
    · exact segments_append norm s ms acc
    · rfl
  | dirichlet b d => rfl
  | neumann b f => rfl

omit [IsStrictOrderedRing K] in
theorem prepareLoop_append (norm : V3 K → K) : ∀ (bcs : List (BC K)) (acc : List (Ready K)),
    bcs.foldlM (prepareStep norm) acc = (bcs.foldlM (prepareStep norm) []).map fun l => acc ++ l
  | [], acc => by simp
  | bc :: bcs, acc => by
    rw [List.foldlM_cons, List.foldlM_cons, prepareStep_append norm bc acc]
    cases prepareStep norm [] bc with
    | none => rfl
    | some r =>
      change List.foldlM _ (acc ++ r) bcs = Option.map _ (List.foldlM _ r bcs)
      rw [prepareLoop_append norm bcs (acc ++ r), prepareLoop_append norm bcs r, Option.map_map]
      congr 1
      funext l
      simp

theorem lagrangeRequired_eq (types : List String) : lagrangeRequired types = true ↔ "LagrangeSupportCondition" ∈ types := by
  have : ∀ (ts : List String) (r : Bool), ts.foldl (fun r t => if t = "LagrangeSupportCondition" then true else r) r = true ↔
      r = true ∨ "LagrangeSupportCondition" ∈ ts := by
    intro ts
    induction ts with
    | nil => simp
    | cons t ts ih =>
      intro r
      rw [List.foldl_cons, ih]
      by_cases h : t = "LagrangeSupportCondition"
      · simp [h]
      · have h' : ¬ "LagrangeSupportCondition" = t := fun e => h e.symm
        simp [h, h']
  unfold lagrangeRequired
  rw [this]
  simp

end QuESo.Kratos
