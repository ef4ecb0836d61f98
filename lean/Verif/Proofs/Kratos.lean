import Verif.Spec.Kratos
import Verif.Proofs.Surface
import Verif.Proofs.Mesh
import Mathlib.Data.List.TakeWhile
import Mathlib.Tactic.Ring
import Mathlib.Tactic.Linarith
import Mathlib.Tactic.FieldSimp

/-!
# Lemmas about the interface to Kratos
-/
namespace QuESo.Kratos
open QuESo.MeshUtil QuESo.TriRule QuESo.BSpline QuESo.Spec QuESo.KratosSpec
variable {K : Type} [Field K] [LinearOrder K]

theorem insertById_last {α : Type _} (key : α → Nat) (a : α) (l : List α) (h : ∀ b ∈ l, key b < key a) : insertById key a l = l ++ [a] := by
  unfold insertById
  have h1 : l.takeWhile (fun b => decide (key b < key a)) = l := List.takeWhile_eq_self_iff.2 fun b hb => by simpa using h b hb
  have h2 : l.dropWhile (fun b => decide (key b < key a)) = [] := by
    rw [List.dropWhile_eq_nil_iff]
    exact fun b hb => by simpa using h b hb
  rw [h1, h2]

/-- The conditions with the ids `k`, `k + 1`, ... -/
def number : Nat → List (Cond K) → List (Cond K)
  | _, [] => []
  | k, c :: cs => { c with id := k } :: number (k + 1) cs

theorem number_length : ∀ (cs : List (Cond K)) (k : Nat), (number k cs).length = cs.length
  | [], _ => rfl
  | _ :: cs, k => by simp [number, number_length cs (k + 1)]

theorem number_append : ∀ (a b : List (Cond K)) (k : Nat), number k (a ++ b) = number k a ++ number (k + a.length) b
  | [], b, k => by simp [number]
  | c :: a, b, k => by
    simp only [List.cons_append, number, number_append a b (k + 1), List.length_cons]
    congr 3; omega

theorem number_ids : ∀ (cs : List (Cond K)) (k : Nat), (number k cs).map Cond.id = List.range' k cs.length
  | [], _ => rfl
  | c :: cs, k => by simp [number, number_ids cs (k + 1), List.range'_succ]

/-- The model part with further conditions, which get the next ids. -/
def ext (mp : ModelPart K) (new : List (Cond K)) : ModelPart K :=
  { mp with conditions := mp.conditions ++ number (mp.conditions.length + 1) new }

theorem ext_length (mp : ModelPart K) (new : List (Cond K)) : (ext mp new).conditions.length = mp.conditions.length + new.length := by
  simp [ext, number_length]

theorem ext_nil (mp : ModelPart K) : ext mp [] = mp := by simp [ext, number]

theorem ext_ext (mp : ModelPart K) (a b : List (Cond K)) : ext (ext mp a) b = ext mp (a ++ b) := by
  simp only [ext, number_append, List.length_append, number_length, List.append_assoc]
  congr 4; omega

theorem ext_numbered {mp : ModelPart K} (h : Numbered mp.conditions) (new : List (Cond K)) : Numbered (ext mp new).conditions := by
  unfold Numbered at *
  rw [ext_length]
  simp only [ext, List.map_append]
  rw [h, number_ids, Nat.add_comm mp.conditions.length 1, List.range'_append_1]

/-- The nodes of the geometry exist. -/
def Known (mp : ModelPart K) : Geom K → Prop
  | .nodes ids => ∀ i ∈ ids, ∃ n ∈ mp.nodes, n.id = i
  | _ => True

theorem create_next {mp : ModelPart K} (h : Numbered mp.conditions) {c : Cond K} (hid : c.id = mp.conditions.length + 1)
    (hk : Known mp c.geom) : createCondition c mp = some (ext mp [c]) := by
  have hlt : ∀ b ∈ mp.conditions, b.id < c.id := by
    intro b hb
    have : b.id ∈ mp.conditions.map Cond.id := List.mem_map.2 ⟨b, hb, rfl⟩
    rw [h, List.mem_range'_1] at this
    omega
  have hany : mp.conditions.any (fun f => decide (f.id = c.id)) = false := by
    rw [List.any_eq_false]
    intro b hb
    have := hlt b hb
    simp; omega
  have he : some { mp with conditions := insertById Cond.id c mp.conditions } = some (ext mp [c]) := by
    rw [insertById_last _ _ _ hlt]
    simp only [ext, number, ← hid]
  unfold createCondition
  rw [hany]
  simp only [Bool.false_eq_true, if_false]
  rcases hg : c.geom with ids | ps | t
  · rw [hg] at hk
    dsimp only
    rw [if_pos]
    · exact he
    · rw [List.all_eq_true]
      intro i hi
      obtain ⟨n, hn, e⟩ := hk i hi
      rw [List.any_eq_true]
      exact ⟨n, hn, by simpa using e⟩
  · exact he
  · exact he

theorem loop_ext {α : Type _} (f : ModelPart K × Nat → α → Option (ModelPart K × Nat)) (g : α → List (Cond K)) :
    ∀ (l : List α) (mp : ModelPart K), Numbered mp.conditions →
      (∀ a ∈ l, ∀ mp : ModelPart K, Numbered mp.conditions → f (mp, mp.conditions.length + 1) a =
        some (ext mp (g a), (ext mp (g a)).conditions.length + 1)) →
      l.foldlM f (mp, mp.conditions.length + 1) = some (ext mp (l.flatMap g), (ext mp (l.flatMap g)).conditions.length + 1)
  | [], mp, _, _ => by simp [ext_nil]
  | a :: l, mp, h, hf => by
    rw [List.foldlM_cons, hf a (by simp) mp h]
    change l.foldlM f (ext mp (g a), (ext mp (g a)).conditions.length + 1) = _
    rw [loop_ext f g l (ext mp (g a)) (ext_numbered h _) fun b hb => hf b (by simp [hb]), ext_ext, List.flatMap_cons]

variable [IsStrictOrderedRing K]

/-- The image of a point in the parameter space. -/
def image (S : Setup K) (p : V3 K) : V3 K := (globalToParam p S.xyz S.uvw).getD ⟨0, 0, 0⟩

theorem image_spec {S : Setup K} (hx : ProperBox S.xyz) (hu : ProperBox S.uvw) (p : V3 K) :
    globalToParam p S.xyz S.uvw = some (image S p) ∧ SamePlace S.xyz S.uvw p (image S p) := by
  have key : ∀ {p lx ux lu uu : K}, lx < ux → lu < uu → ∃ q, toParam1 p lx ux lu uu = some q ∧ (q - lu) * (ux - lx) = (p - lx) * (uu - lu) := by
    intro p lx ux lu uu h1 h2
    have a1 : |ux - lx| = ux - lx := abs_of_pos (sub_pos.2 h1)
    have a2 : |uu - lu| = uu - lu := abs_of_pos (sub_pos.2 h2)
    have hne : ux - lx ≠ 0 := (sub_pos.2 h1).ne'
    refine ⟨_, by unfold toParam1; rw [a1, a2, if_neg hne], ?_⟩
    field_simp
    ring
  obtain ⟨x, ex, fx⟩ := key (p := p.x) hx.1 hu.1
  obtain ⟨y, ey, fy⟩ := key (p := p.y) hx.2.1 hu.2.1
  obtain ⟨z, ez, fz⟩ := key (p := p.z) hx.2.2 hu.2.2
  have e : globalToParam p S.xyz S.uvw = some ⟨x, y, z⟩ := by
    unfold globalToParam
    rw [ex, ey, ez]
    rfl
  have ei : image S p = ⟨x, y, z⟩ := by unfold image; rw [e]; rfl
  rw [ei]
  exact ⟨e, fx, fy, fz⟩

theorem ips_one (norm : V3 K → K) (zt : K) (t : Tri K) : ipsGlobal norm zt (Tri.corners t) 1 =
    some ((loadPoints t).map fun p => ⟨p, triangleArea norm t / 3, normal norm zt ⟨t.p1, t.p2, t.p3⟩⟩) := by
  have ha : area norm ⟨t.p1, t.p2, t.p3⟩ = triangleArea norm t := area_eq norm t.p1 t.p2 t.p3
  have h6 : ((1 / 6 : ℚ) : K) = 1 / 6 := by push_cast; rfl
  have h3 : ((2 / 3 : ℚ) : K) = 2 / 3 := by push_cast; rfl
  unfold ipsGlobal pointsOf
  refine congrArg some ?_
  simp only [points2, loadPoints, List.map_cons, List.map_nil, ipGlobal, shapeValue, ha, h6, h3, Tri.corners]
  refine List.cons_eq_cons.2 ⟨?_, List.cons_eq_cons.2 ⟨?_, List.cons_eq_cons.2 ⟨?_, rfl⟩⟩⟩ <;>
  · refine congr (congr (congrArg _ ?_) ?_) rfl
    · apply V3.ext <;> dsimp only <;> ring
    · ring

/-- The conditions of a load on a triangle, with the id 0. -/
def loadConds (S : Setup K) (force : Mapping.BndPoint K → Value (V3 K)) (t : Tri K) : List (Cond K) :=
  if triangleArea S.norm t / 3 < 1 / 10 ^ 14 then [] else
    (loadPoints t).map fun p => ⟨"LoadCondition", 0, .points [(image S p, triangleArea S.norm t / 3)],
      force ⟨p, triangleArea S.norm t / 3, normal S.norm S.zt ⟨t.p1, t.p2, t.p3⟩⟩, none⟩

theorem number_flat {α : Type _} (g : α → Cond K) (l : List α) : (l.flatMap fun a => [g a]) = l.map g := by
  induction l with
  | nil => rfl
  | cons a l ih => simp [ih]

theorem loadLoop_eq {S : Setup K} (hx : ProperBox S.xyz) (hu : ProperBox S.uvw) (force : Mapping.BndPoint K → Value (V3 K)) (ts : List (Tri K))
    {mp : ModelPart K} (h : Numbered mp.conditions) : loadLoop S force ts (mp, mp.conditions.length + 1) =
      some (ext mp (ts.flatMap (loadConds S force)), (ext mp (ts.flatMap (loadConds S force))).conditions.length + 1) := by
  unfold loadLoop
  refine loop_ext _ (loadConds S force) ts mp h ?_
  intro t _ mp h
  rw [ips_one]
  simp only [Option.bind_some]
  have := loop_ext (fun (s : ModelPart K × Nat) (q : Mapping.BndPoint K) =>
      (globalToParam q.pos S.xyz S.uvw).bind fun v =>
        if q.weight < 1 / 10 ^ 14 then some s
        else (createCondition ⟨"LoadCondition", s.2, .points [(v, q.weight)], force q, none⟩ s.1).map fun mp => (mp, s.2 + 1))
    (fun q => if q.weight < 1 / 10 ^ 14 then [] else [⟨"LoadCondition", 0, .points [(image S q.pos, q.weight)], force q, none⟩])
    ((loadPoints t).map fun p => ⟨p, triangleArea S.norm t / 3, normal S.norm S.zt ⟨t.p1, t.p2, t.p3⟩⟩) mp h ?_
  · rw [this]
    have e : ((loadPoints t).map fun p => (⟨p, triangleArea S.norm t / 3, normal S.norm S.zt ⟨t.p1, t.p2, t.p3⟩⟩ : Mapping.BndPoint K)).flatMap
        (fun q => if q.weight < 1 / 10 ^ 14 then [] else [(⟨"LoadCondition", 0, .points [(image S q.pos, q.weight)], force q, none⟩ : Cond K)]) =
        loadConds S force t := by
      rw [List.flatMap_map]
      unfold loadConds
      split
      · simp
      · exact number_flat _ _
    rw [e]
  · intro q _ mp h
    rw [(image_spec hx hu q.pos).1]
    simp only [Option.bind_some]
    split
    · rw [ext_nil]
    · rw [create_next (c := ⟨"LoadCondition", mp.conditions.length + 1, .points [(image S q.pos, q.weight)], force q, none⟩) h rfl trivial]
      simp [ext, number]

/-- The conditions of a support on a triangle, with the id 0. -/
def supportConds (S : Setup K) (kind : String) (u : V3 K) (t : Tri K) : List (Cond K) :=
  if aspectRatio S.norm S.eps S.root3 (Tri.corners t) ≥ 10 ^ 8 then []
  else if S.surfaceArea ⟨image S t.p1, image S t.p2, image S t.p3⟩ ≤ 1 / 10 ^ 14 then []
  else [⟨kind, 0, .surface ⟨image S t.p1, image S t.p2, image S t.p3⟩, .unset, some u⟩]

theorem supportLoop_eq {S : Setup K} (hx : ProperBox S.xyz) (hu : ProperBox S.uvw) (kind : String) (u : V3 K) (ts : List (Tri K))
    {mp : ModelPart K} (h : Numbered mp.conditions) : supportLoop S kind u ts (mp, mp.conditions.length + 1) =
      some (ext mp (ts.flatMap (supportConds S kind u)), (ext mp (ts.flatMap (supportConds S kind u))).conditions.length + 1) := by
  unfold supportLoop
  refine loop_ext _ (supportConds S kind u) ts mp h ?_
  intro t _ mp h
  rw [(image_spec hx hu t.p1).1, (image_spec hx hu t.p2).1, (image_spec hx hu t.p3).1]
  simp only [Option.bind_some]
  unfold supportConds
  split
  · rw [ext_nil]
  · split
    · rw [ext_nil]
    · rw [create_next (c := ⟨kind, mp.conditions.length + 1, .surface ⟨image S t.p1, image S t.p2, image S t.p3⟩, .unset, some u⟩) h rfl trivial]
      simp [ext, number]

/-! ## Sums of forces -/

theorem mapM_some {α β : Type _} {g : α → Option β} {f : α → β} : ∀ {l : List α}, (∀ a ∈ l, g a = some (f a)) → l.mapM g = some (l.map f)
  | [], _ => rfl
  | a :: l, h => by
    rw [List.mapM_cons, h a (by simp), mapM_some fun b hb => h b (by simp [hb])]
    rfl

theorem sumV_append (a b : List (V3 K)) : sumV (a ++ b) = sumV a + sumV b := by
  apply V3.ext <;> simp [sumV]

theorem sumV_cons (a : V3 K) (b : List (V3 K)) : sumV (a :: b) = a + sumV b := by
  apply V3.ext <;> simp [sumV]

theorem number_mem {c : Cond K} : ∀ {cs : List (Cond K)} {k : Nat}, c ∈ number k cs → ∃ d ∈ cs, ∃ i, c = { d with id := i }
  | d :: cs, k, h => by
    rw [number, List.mem_cons] at h
    rcases h with h | h
    · exact ⟨d, by simp, k, h⟩
    · obtain ⟨e, he, i, r⟩ := number_mem h
      exact ⟨e, by simp [he], i, r⟩

theorem forall₂_number {α : Type _} {R : Cond K → α → Prop} (hR : ∀ c a i, R c a → R { c with id := i } a) :
    ∀ {cs : List (Cond K)} {as : List α} (k : Nat), List.Forall₂ R cs as → List.Forall₂ R (number k cs) as
  | _, _, _, .nil => .nil
  | _, _, k, .cons h t => .cons (hR _ _ _ h) (forall₂_number hR (k + 1) t)

theorem forall₂_flatMap {α β γ : Type _} {R : β → γ → Prop} {f : α → List β} {g : α → List γ} :
    ∀ {l : List α}, (∀ a ∈ l, List.Forall₂ R (f a) (g a)) → List.Forall₂ R (l.flatMap f) (l.flatMap g)
  | [], _ => .nil
  | a :: l, h => by
    rw [List.flatMap_cons, List.flatMap_cons]
    exact List.rel_append (h a (by simp)) (forall₂_flatMap fun b hb => h b (by simp [hb]))

theorem flatMap_filter {α β : Type _} (p : α → Bool) (f : α → List β) (l : List α) :
    (l.filter p).flatMap f = l.flatMap fun a => if p a then f a else [] := by
  induction l with
  | nil => rfl
  | cons a l ih =>
    rw [List.filter_cons, List.flatMap_cons]
    split
    · rw [List.flatMap_cons, ih]
    · rw [ih]; rfl

/-- The triangles that get loads. -/
def loaded (norm : V3 K → K) (ts : List (Tri K)) : List (Tri K) := ts.filter fun t => decide (3 / 10 ^ 14 ≤ triangleArea norm t)

theorem loadConds_eq (S : Setup K) (force : Mapping.BndPoint K → Value (V3 K)) (ts : List (Tri K)) :
    ts.flatMap (loadConds S force) = (loaded S.norm ts).flatMap fun t =>
      (loadPoints t).map fun p => ⟨"LoadCondition", 0, .points [(image S p, triangleArea S.norm t / 3)],
        force ⟨p, triangleArea S.norm t / 3, normal S.norm S.zt ⟨t.p1, t.p2, t.p3⟩⟩, none⟩ := by
  unfold loaded
  rw [flatMap_filter]
  refine List.flatMap_congr fun t _ => ?_
  unfold loadConds
  have hiff : triangleArea S.norm t / 3 < 1 / 10 ^ 14 ↔ ¬ 3 / 10 ^ 14 ≤ triangleArea S.norm t := by
    rw [not_le, div_lt_iff₀ (by norm_num)]
    constructor <;> intro h <;> linarith
  by_cases h : 3 / 10 ^ 14 ≤ triangleArea S.norm t
  · rw [if_neg (fun hc => hiff.1 hc h), if_pos (by simpa using h)]
  · rw [if_pos (hiff.2 h), if_neg (by simpa using h)]

/-- The loads of the conditions of a load when the force of a point depends on the triangle only. -/
theorem load_spec {S : Setup K} (hx : ProperBox S.xyz) (hu : ProperBox S.uvw) {force : Mapping.BndPoint K → Value (V3 K)} {φ : Tri K → V3 K}
    {ts : List (Tri K)} (hf : ∀ t ∈ loaded S.norm ts, ∀ p, force ⟨p, triangleArea S.norm t / 3, normal S.norm S.zt ⟨t.p1, t.p2, t.p3⟩⟩ = .set (φ t))
    {mp : ModelPart K} (h : Numbered mp.conditions) : ∃ mp' new,
      loadLoop S force ts (mp, mp.conditions.length + 1) = some (mp', mp'.conditions.length + 1) ∧
      mp' = { mp with conditions := mp.conditions ++ new } ∧ Numbered mp'.conditions ∧
      List.Forall₂ (fun c (e : V3 K × K × V3 K) => LoadAt S.xyz S.uvw c e.1 e.2.1 e.2.2) new
        ((loaded S.norm ts).flatMap fun t => (loadPoints t).map fun p => (p, triangleArea S.norm t / 3, φ t)) ∧
      totalForce mp' new = some (sumV ((loaded S.norm ts).map fun t => V3.scale 3 (φ t))) := by
  set cs := ts.flatMap (loadConds S force) with hcs
  have hF : List.Forall₂ (fun c (e : V3 K × K × V3 K) => LoadAt S.xyz S.uvw c e.1 e.2.1 e.2.2) (number (mp.conditions.length + 1) cs)
      ((loaded S.norm ts).flatMap fun t => (loadPoints t).map fun p => (p, triangleArea S.norm t / 3, φ t)) := by
    refine forall₂_number (fun c a i hc => hc) _ ?_
    rw [hcs, loadConds_eq]
    refine forall₂_flatMap fun t ht => ?_
    rw [List.forall₂_map_left_iff, List.forall₂_map_right_iff, List.forall₂_same]
    intro p _
    exact ⟨rfl, hf t ht p, rfl, image S p, (image_spec hx hu p).2, rfl⟩
  refine ⟨ext mp cs, _, loadLoop_eq hx hu force ts h, rfl, ext_numbered h _, hF, ?_⟩
  unfold totalForce
  have hm : ∀ (l : List (Cond K)) (es : List (V3 K × K × V3 K)),
      List.Forall₂ (fun c (e : V3 K × K × V3 K) => LoadAt S.xyz S.uvw c e.1 e.2.1 e.2.2) l es →
      l.mapM (forceOf (ext mp cs)) = some (es.map fun e => e.2.2) := by
    intro l es hl
    induction hl with
    | nil => rfl
    | @cons c e _ _ hc _ ih =>
      have : forceOf (ext mp cs) c = some e.2.2 := by
        unfold forceOf
        rw [if_pos hc.1, hc.2.1]
      rw [List.mapM_cons, ih, this]
      rfl
  rw [hm _ _ hF]
  simp only [Option.map_some]
  congr 1
  induction loaded S.norm ts with
  | nil => rfl
  | cons t l ih =>
    rw [List.flatMap_cons, List.map_append, sumV_append, ih, List.map_cons, sumV_cons]
    congr 1
    apply V3.ext <;> simp [loadPoints, sumV] <;> ring

theorem sum_filter {α : Type _} (p : α → Bool) (g : α → K) {c : K} : ∀ {l : List α}, (∀ a ∈ l, p a = false → |g a| ≤ c) → 0 ≤ c →
    |(l.map g).sum - ((l.filter p).map g).sum| ≤ c * l.length
  | [], _, _ => by simp
  | a :: l, h, hc => by
    have ih := sum_filter p g (l := l) (fun b hb => h b (by simp [hb])) hc
    rw [List.filter_cons, List.map_cons, List.sum_cons, List.length_cons]
    push_cast
    cases hp : p a with
    | true =>
      rw [if_pos rfl, List.map_cons, List.sum_cons, add_sub_add_left_eq_sub]
      linarith
    | false =>
      rw [if_neg (by simp), add_sub_assoc]
      have := abs_add_le (g a) ((l.map g).sum - ((l.filter p).map g).sum)
      have := h a (by simp) hp
      linarith

theorem sum_filter_le {α : Type _} (p : α → Bool) (g : α → K) : ∀ {l : List α}, (∀ a ∈ l, 0 ≤ g a) → ((l.filter p).map g).sum ≤ (l.map g).sum
  | [], _ => by simp
  | a :: l, h => by
    have ih := sum_filter_le p g (l := l) (fun b hb => h b (by simp [hb]))
    have := h a (by simp)
    rw [List.filter_cons, List.map_cons, List.sum_cons]
    split
    · rw [List.map_cons, List.sum_cons]; linarith
    · linarith

theorem mem_number {d : Cond K} : ∀ {cs : List (Cond K)} (k : Nat), d ∈ cs → ∃ i, { d with id := i } ∈ number k cs
  | c :: cs, k, h => by
    rw [List.mem_cons] at h
    rcases h with rfl | h
    · exact ⟨k, by simp [number]⟩
    · obtain ⟨i, hi⟩ := mem_number (k + 1) h
      exact ⟨i, by simp [number, hi]⟩

theorem mapM_none {α β : Type _} {g : α → Option β} : ∀ {l : List α} {a : α}, a ∈ l → g a = none → l.mapM g = none
  | b :: l, a, h, hg => by
    rw [List.mapM_cons]
    rw [List.mem_cons] at h
    rcases h with rfl | h
    · rw [hg]; rfl
    · rw [mapM_none h hg]
      cases g b <;> rfl

theorem coord_sumV {α : Type _} (f : α → V3 K) (i : Fin 3) (l : List α) : coord (sumV (l.map f)) i = (l.map fun a => coord (f a) i).sum := by
  fin_cases i <;> simp [coord, sumV, Function.comp_def]

theorem coord_scale (c : K) (v : V3 K) (i : Fin 3) : coord (V3.scale c v) i = c * coord v i := by
  fin_cases i <;> rfl

theorem coord_le {norm : V3 K → K} (hn : IsNorm3 norm) (v : V3 K) (i : Fin 3) : |coord v i| ≤ norm v := by
  obtain ⟨h0, h2⟩ := hn v
  refine abs_le_of_sq_le_sq ?_ h0
  rw [h2]
  have := sq_nonneg v.x
  have := sq_nonneg v.y
  have := sq_nonneg v.z
  fin_cases i <;> simp only [coord] <;> linarith

theorem image_unique {S : Setup K} (hx : ProperBox S.xyz) (hu : ProperBox S.uvw) {p q : V3 K} (h : SamePlace S.xyz S.uvw p q) : q = image S p := by
  obtain ⟨a1, a2, a3⟩ := h
  obtain ⟨b1, b2, b3⟩ := (image_spec hx hu p).2
  have c : ∀ {a b l w r : K}, 0 < w → (a - l) * w = r → (b - l) * w = r → a = b := by
    intro a b l w r hw h1 h2
    have := mul_right_cancel₀ hw.ne' (h1.trans h2.symm)
    linarith
  exact V3.ext (c (sub_pos.2 hx.1) a1 b1) (c (sub_pos.2 hx.2.1) a2 b2) (c (sub_pos.2 hx.2.2) a3 b3)

/-- The triangle gets a condition of a support. -/
def good (S : Setup K) (t : Tri K) : Bool :=
  !decide (aspectRatio S.norm S.eps S.root3 (Tri.corners t) ≥ 10 ^ 8) &&
    !decide (S.surfaceArea ⟨image S t.p1, image S t.p2, image S t.p3⟩ ≤ 1 / 10 ^ 14)

theorem good_iff {S : Setup K} (hn : IsNorm3 S.norm) (hr : 0 < S.root3) (he : 0 ≤ S.eps) (t : Tri K) : good S t = true ↔
    S.eps < triangleArea S.norm t ∧ longestEdge S.norm t * perimeter S.norm t < 10 ^ 8 * (4 * S.root3 * triangleArea S.norm t) ∧
      1 / 10 ^ 14 < S.surfaceArea ⟨image S t.p1, image S t.p2, image S t.p3⟩ := by
  have ha : area S.norm (Tri.corners t) = triangleArea S.norm t := area_eq S.norm t.p1 t.p2 t.p3
  have key : ¬ aspectRatio S.norm S.eps S.root3 (Tri.corners t) ≥ 10 ^ 8 ↔
      S.eps < triangleArea S.norm t ∧ longestEdge S.norm t * perimeter S.norm t < 10 ^ 8 * (4 * S.root3 * triangleArea S.norm t) := by
    unfold aspectRatio
    rw [ha]
    dsimp only
    split
    · rename_i h
      have hp : 0 < 4 * S.root3 * triangleArea S.norm t := by
        have : 0 < triangleArea S.norm t := lt_of_le_of_lt he h
        positivity
      rw [ge_iff_le, not_le, div_lt_iff₀ hp]
      exact ⟨fun g => ⟨h, g⟩, fun g => g.2⟩
    · rename_i h
      constructor
      · intro g
        exact absurd (by norm_num : (10 : K) ^ 8 ≤ 10 ^ 10) (by simpa using g)
      · exact fun g => absurd g.1 h
  unfold good
  rw [Bool.and_eq_true, Bool.not_eq_true', Bool.not_eq_true', decide_eq_false_iff_not, decide_eq_false_iff_not, key, not_le, and_assoc]

theorem supportConds_eq (S : Setup K) (kind : String) (u : V3 K) (ts : List (Tri K)) :
    ts.flatMap (supportConds S kind u) = (ts.filter (good S)).map fun t =>
      ⟨kind, 0, .surface ⟨image S t.p1, image S t.p2, image S t.p3⟩, .unset, some u⟩ := by
  rw [← number_flat, flatMap_filter]
  refine List.flatMap_congr fun t _ => ?_
  unfold supportConds good
  split
  · rename_i h
    rw [decide_eq_true h, Bool.not_true, Bool.false_and, if_neg (by simp)]
  · rename_i h
    split
    · rename_i h2
      rw [decide_eq_true h2, Bool.not_true, Bool.and_false, if_neg (by simp)]
    · rename_i h2
      rw [decide_eq_false h, decide_eq_false h2, Bool.not_false, Bool.and_true, if_pos rfl]

theorem support_spec {S : Setup K} (hn : IsNorm3 S.norm) (hr : 0 < S.root3) (he : 0 ≤ S.eps) (hx : ProperBox S.xyz) (hu : ProperBox S.uvw)
    (kind : String) (u : V3 K) (ts : List (Tri K)) {mp : ModelPart K} (h : Numbered mp.conditions) :
    ∃ new, supportLoop S kind u ts (mp, mp.conditions.length + 1) = some (ext mp new, (ext mp new).conditions.length + 1) ∧
      List.Forall₂ (SupportOn S.xyz S.uvw kind u) (number (mp.conditions.length + 1) new) (ts.filter (good S)) ∧
      ∀ t ∈ ts, ∀ q1 q2 q3, SamePlace S.xyz S.uvw t.p1 q1 → SamePlace S.xyz S.uvw t.p2 q2 → SamePlace S.xyz S.uvw t.p3 q3 →
        (good S t = true ↔ S.eps < triangleArea S.norm t ∧
          longestEdge S.norm t * perimeter S.norm t < 10 ^ 8 * (4 * S.root3 * triangleArea S.norm t) ∧
          1 / 10 ^ 14 < S.surfaceArea ⟨q1, q2, q3⟩) := by
  refine ⟨ts.flatMap (supportConds S kind u), supportLoop_eq hx hu kind u ts h, ?_, ?_⟩
  · refine forall₂_number (fun c a i hc => hc) _ ?_
    rw [supportConds_eq, List.forall₂_map_left_iff, List.forall₂_same]
    intro t _
    exact ⟨rfl, rfl, rfl, _, _, _, (image_spec hx hu t.p1).2, (image_spec hx hu t.p2).2, (image_spec hx hu t.p3).2, rfl⟩
  · intro t _ q1 q2 q3 h1 h2 h3
    rw [image_unique hx hu h1, image_unique hx hu h2, image_unique hx hu h3]
    exact good_iff hn hr he t

end QuESo.Kratos
