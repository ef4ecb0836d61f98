import Verif.Spec.TrimmedSection
import Verif.Proofs.PlaneStrips

/-!
# The rim of a cap and the contour of its face
-/
namespace QuESo.Plane
open QuESo.Spec
variable {K : Type} [Field K] [LinearOrder K] [IsStrictOrderedRing K]

/-- The way from the lower left corner along the lower side and up to a point. -/
def Params.way (P : Params K) (Q : P2 K → P2 K → K) (p : P2 K) : K := Q P.lowLeft ⟨p.x, P.lo.get P.d2⟩ + Q ⟨p.x, P.lo.get P.d2⟩ p

/-- The way to a point along the sides of the face, from the lower end of its side. -/
def Params.short (P : Params K) (Q : P2 K → P2 K → K) (p : P2 K) : K :=
  if p.x = P.lo.get P.d1 then Q P.lowLeft p else if p.x = P.up.get P.d1 then Q P.lowRight p else if p.y = P.lo.get P.d2 then Q P.lowLeft p
  else if p.y = P.up.get P.d2 then Q P.topLeft p else P.way Q p

/-- The point is strictly inside the upper side. -/
def Params.inTop (P : Params K) (p : P2 K) : K := if p.y = P.up.get P.d2 ∧ P.lo.get P.d1 < p.x ∧ p.x < P.up.get P.d1 then 1 else 0

/-- The point is on the right side. -/
def Params.inRight (P : Params K) (p : P2 K) : K := if p.x = P.up.get P.d1 then 1 else 0

theorem wall_way {P : Params K} {Q : P2 K → P2 K → K} (hQ : Quantity Q) (e : P2 K × P2 K) :
    wall Q (P.lo.get P.d2) e = P.way Q e.2 - P.way Q e.1 - Q e.1 e.2 := by
  unfold wall Params.way Params.lowLeft
  rw [hQ.swap e.1 e.2, hQ.swap ⟨e.1.x, P.lo.get P.d2⟩ e.1, hQ.hor (P.lo.get P.d2) (P.lo.get P.d1) e.1.x e.2.x]
  ring

/-- A weighted list of points with weight zero at each point. -/
theorem weights_zero (L : List (K × P2 K)) (T : P2 K → Prop) [DecidablePred T] (h : ∀ p, T p → (L.map fun x => x.1 * isAt p x.2).sum = 0) (f : P2 K → K) :
    (L.map fun x => x.1 * ((if T x.2 then 1 else 0) * f x.2)).sum = 0 := by
  classical
  have swap : ∀ (L : List (K × P2 K)) (F : Finset (P2 K)), (L.map fun x => ∑ p ∈ F, x.1 * isAt p x.2 * f p).sum =
      ∑ p ∈ F, (L.map fun x => x.1 * isAt p x.2).sum * f p := by
    intro L F
    induction L with
    | nil => simp
    | cons x L ih =>
      rw [List.map_cons, List.sum_cons, ih, ← Finset.sum_add_distrib]
      refine Finset.sum_congr rfl fun p _ => ?_
      rw [List.map_cons, List.sum_cons]
      ring
  have hat : ∀ p q : P2 K, isAt p q = if p = q then (1 : K) else 0 := by
    intro p q
    unfold isAt
    obtain ⟨_, _⟩ := p
    obtain ⟨_, _⟩ := q
    simp only [P2.mk.injEq]
    congr 1
    rw [eq_comm (a := _) , eq_comm (b := _)]
    simp only [eq_comm]
  have e : (L.map fun x => x.1 * ((if T x.2 then 1 else 0) * f x.2)) = L.map fun x => ∑ p ∈ ((L.map Prod.snd).toFinset.filter fun p => T p), x.1 * isAt p x.2 * f p := by
    refine List.map_congr_left fun x hx => ?_
    simp only [hat, mul_ite, mul_one, mul_zero, ite_mul, zero_mul, Finset.sum_ite_eq', Finset.sum_ite_eq]
    have : x.2 ∈ (L.map Prod.snd).toFinset := by simp; exact ⟨x.1, hx⟩
    simp [this]
  rw [e, swap]
  refine Finset.sum_eq_zero fun p hp => ?_
  rw [h p (Finset.mem_filter.1 hp).2, zero_mul]

/-- Sums over edges that differ by a constant factor. -/
theorem sum_map_mul (c : K) {α : Type} (l : List α) (f : α → K) : (l.map fun x => c * f x).sum = c * (l.map f).sum := by
  induction l with
  | nil => simp
  | cons a l ih => rw [List.map_cons, List.sum_cons, ih, List.map_cons, List.sum_cons]; ring

theorem sum_map_add {α : Type} (l : List α) (f g : α → K) : (l.map fun x => f x + g x).sum = (l.map f).sum + (l.map g).sum := by
  induction l with
  | nil => simp
  | cons a l ih => rw [List.map_cons, List.sum_cons, ih, List.map_cons, List.sum_cons, List.map_cons, List.sum_cons]; ring

theorem sum_map_sub {α : Type} (l : List α) (f g : α → K) : (l.map fun x => f x - g x).sum = (l.map f).sum - (l.map g).sum := by
  induction l with
  | nil => simp
  | cons a l ih => rw [List.map_cons, List.sum_cons, ih, List.map_cons, List.sum_cons, List.map_cons, List.sum_cons]; ring

/-- The direction of an edge that faces up or down. -/
theorem runs_direction {P : Params K} (hP : P.Sound) (hA : P.Axes) {es : List (Given K)} (hg : P.General es) {e : Given K} (he : e ∈ es) (hr : P.Runs e) :
    (P.orient e.1 e.2.1 e.2.2 = some .positive → P.ends e.1 e.2.1 = if P.turn = 1 then (P.proj e.1, P.proj e.2.1) else (P.proj e.2.1, P.proj e.1)) ∧
    (P.orient e.1 e.2.1 e.2.2 = some .negative → P.ends e.1 e.2.1 = if P.turn = 1 then (P.proj e.2.1, P.proj e.1) else (P.proj e.1, P.proj e.2.1)) := by
  have htol := hP.tol_pos
  have hzt := hP.zt_pos
  have hperp : (P.proj e.2.2).x * ((P.proj e.2.1).x - (P.proj e.1).x) + (P.proj e.2.2).y * ((P.proj e.2.1).y - (P.proj e.1).y) = 0 := by
    have := hg.normal e he
    unfold Params.ends at this
    split at this
    · exact this
    · dsimp only at this
      linarith
  have hdet : P.turn * ((P.proj e.2.2).x * ((P.proj e.2.1).y - (P.proj e.1).y) - (P.proj e.2.2).y * ((P.proj e.2.1).x - (P.proj e.1).x)) < 0 := by
    have := hr.into
    have hp1 := hr.plane.1
    have hp2 := hr.plane.2
    unfold Params.turn Params.proj
    obtain ⟨⟨ax, ay, az⟩, ⟨bx, by', bz⟩, ⟨nx, ny, nz⟩⟩ := e
    unfold Params.outward at this
    have hsub : ((⟨bx, by', bz⟩ : V3 K) - ⟨ax, ay, az⟩) = ⟨bx - ax, by' - ay, bz - az⟩ := rfl
    dsimp only at this
    rw [hsub] at this
    rcases axes_cases hA with h | h | h | h | h | h <;> obtain ⟨h0, h1, h2, h3⟩ := h <;> rw [h3] at this hp1 hp2 <;> rw [h0, h1, h2] <;>
      cases hu : P.upper <;> rw [hu] at this <;>
      simp [V3.dot, V3.cross, V3.set, V3.get] at this hp1 hp2 ⊢ <;> linarith
  have hturn : P.turn = 1 ∨ P.turn = -1 := by unfold Params.turn; split <;> simp
  generalize hx : (P.proj e.2.1).x - (P.proj e.1).x = dx at hperp hdet
  generalize hy : (P.proj e.2.1).y - (P.proj e.1).y = dy at hperp hdet
  generalize hnx : (P.proj e.2.2).x = nx at hperp hdet
  generalize hny : (P.proj e.2.2).y = ny at hperp hdet
  -- multiply by the difference
  have key : dx ≠ 0 → P.turn * ny * dx * (dx * dx + dy * dy) > 0 := by
    intro h0
    have hsq : 0 < dx * dx := mul_self_pos.2 h0
    have e : P.turn * ny * dx * (dx * dx + dy * dy) = -(P.turn * (nx * dy - ny * dx)) * (dx * dx) := by
      linear_combination (P.turn * dx * dy) * hperp
    rw [e]
    exact mul_pos (neg_pos.2 hdet) hsq
  have hgt : (e.2.1.get P.d1 > e.1.get P.d1) ↔ 0 < dx := by
    rw [← hx]
    unfold Params.proj
    constructor <;> intro h <;> dsimp only at h ⊢ <;> linarith
  have hny' : e.2.2.get P.d2 = ny := hny
  have hends : ∀ o, P.orient e.1 e.2.1 e.2.2 = some o → o ≠ .vertical → dx ≠ 0 ∧ (o = .positive → 0 < ny) ∧ (o = .negative → ny < 0) := by
    intro o ho hv
    unfold Params.orient at ho
    dsimp only at ho
    rw [hny'] at ho
    have hdx : |(P.ends e.1 e.2.1).1.x - (P.ends e.1 e.2.1).2.x| = |dx| := by
      unfold Params.ends
      split
      · rw [← hx, abs_sub_comm]
      · rw [← hx]
    rw [hdx] at ho
    split_ifs at ho with c1 c2 c3 c4 c5
    · cases ho
      refine ⟨?_, fun _ => by linarith, fun h => by simp at h⟩
      rintro rfl; simp at c1; linarith
    · cases ho
      refine ⟨?_, fun h => by simp at h, fun _ => by linarith⟩
      rintro rfl; simp at c1; linarith
    · cases ho; exact absurd rfl hv
    · cases ho; exact absurd rfl hv
  have hpos : ∀ {a : K}, a * (dx * dx + dy * dy) > 0 → 0 < a := by
    intro a h
    by_contra hn
    have : a * (dx * dx + dy * dy) ≤ 0 := mul_nonpos_of_nonpos_of_nonneg (not_lt.1 hn) (by nlinarith [mul_self_nonneg dx, mul_self_nonneg dy])
    linarith
  constructor
  · intro ho
    obtain ⟨k0, k1, -⟩ := hends _ ho (by simp)
    have k1 := k1 rfl
    have k2 := hpos (key k0)
    unfold Params.ends
    rcases hturn with ht | ht
    · rw [ht] at k2
      rw [if_pos (hgt.2 (by nlinarith)), if_pos ht]
    · rw [ht] at k2
      rw [if_neg (fun h => by have := hgt.1 h; nlinarith), if_neg (by rw [ht]; norm_num)]
  · intro ho
    obtain ⟨k0, -, k1⟩ := hends _ ho (by simp)
    have k1 := k1 rfl
    have k2 := hpos (key k0)
    unfold Params.ends
    rcases hturn with ht | ht
    · rw [ht] at k2
      rw [if_neg (fun h => by have := hgt.1 h; nlinarith), if_pos ht]
    · rw [ht] at k2
      rw [if_pos (hgt.2 (by nlinarith)), if_neg (by rw [ht]; norm_num)]

/-- What a difference along the edges gives, if it vanishes along the vertical ones. -/
theorem oriented_sum {P : Params K} (hP : P.Sound) (hA : P.Axes) {es : List (Given K)} (hg : P.General es) (hr : ∀ e ∈ es, P.Runs e)
    {D : P2 K → P2 K → K} (hs : ∀ a b, D b a = -D a b) (hv : ∀ e ∈ P.ofOrient .vertical es, D (P.proj e.1) (P.proj e.2.1) = 0) :
    (es.map fun e => D (P.proj e.1) (P.proj e.2.1)).sum = P.turn * (((P.ofOrient .positive es).map fun e => D (P.ends e.1 e.2.1).1 (P.ends e.1 e.2.1).2).sum -
      ((P.ofOrient .negative es).map fun e => D (P.ends e.1 e.2.1).1 (P.ends e.1 e.2.1).2).sum) := by
  have hturn : P.turn = 1 ∨ P.turn = -1 := by unfold Params.turn; split <;> simp
  have hne : (1 : K) ≠ -1 := by norm_num
  have gen : ∀ l : List (Given K), (∀ e ∈ l, e ∈ es) → (l.map fun e => D (P.proj e.1) (P.proj e.2.1)).sum =
      P.turn * (((P.ofOrient .positive l).map fun e => D (P.ends e.1 e.2.1).1 (P.ends e.1 e.2.1).2).sum -
        ((P.ofOrient .negative l).map fun e => D (P.ends e.1 e.2.1).1 (P.ends e.1 e.2.1).2).sum) := by
    intro l
    induction l with
    | nil => intro _; simp [Params.ofOrient]
    | cons e l ih =>
      intro hl
      have he := hl e (by simp)
      have i := ih fun x hx => hl x (by simp [hx])
      obtain ⟨d1, d2⟩ := runs_direction hP hA hg he (hr e he)
      unfold Params.ofOrient at i ⊢
      rw [List.map_cons, List.sum_cons, i]
      cases ho : P.orient e.1 e.2.1 e.2.2 with
      | none => exact absurd ho (hr e he).used
      | some o =>
        cases o with
        | positive =>
          rw [List.filter_cons_of_pos (by simp [ho]), List.filter_cons_of_neg (by simp [ho]), List.map_cons, List.sum_cons, d1 ho]
          rcases hturn with ht | ht
          · rw [ht, if_pos rfl]; ring
          · rw [ht, if_neg hne.symm, hs (P.proj e.1)]; ring
        | negative =>
          rw [List.filter_cons_of_neg (by simp [ho]), List.filter_cons_of_pos (by simp [ho]), List.map_cons, List.sum_cons, d2 ho]
          rcases hturn with ht | ht
          · rw [ht, if_pos rfl, hs (P.proj e.1)]; ring
          · rw [ht, if_neg hne.symm]; ring
        | vertical =>
          rw [List.filter_cons_of_neg (by simp [ho]), List.filter_cons_of_neg (by simp [ho]), hv e (by simp [Params.ofOrient, he, ho])]
          ring
  exact gen es fun _ h => h

/-- The ends of the closed parts of the upper side. -/
theorem tops_ends {P : Params K} {es : List (Given K)} (hg : P.General es) {mid vs : List (K × Bool)} {tops : List (P2 K × P2 K)}
    (hpl : P.Places es mid vs) (hto : P.TopEdges es mid vs tops) : ∀ e ∈ tops, (e.1.y = P.up.get P.d2 ∧ e.2.y = P.up.get P.d2) ∧
      (P.lo.get P.d1 ≤ e.1.x ∨ e.1.x = P.up.get P.d1) ∧ (e.2.x ≤ P.up.get P.d1 ∨ e.2.x = P.lo.get P.d1) := by
  have hmid : ∀ v ∈ mid, P.lo.get P.d1 ≤ v.1 ∧ v.1 ≤ P.up.get P.d1 := by
    intro v hv
    have := (hpl.1.mem_iff).1 hv
    have hcr : ∃ o, v ∈ P.crossings o es := by
      unfold single at this
      rcases List.mem_append.1 this with h | h
      · exact ⟨_, (List.mem_filter.1 h).1⟩
      · rcases List.mem_append.1 h with h | h
        · exact ⟨_, (List.mem_filter.1 h).1⟩
        · exact ⟨_, (List.mem_filter.1 h).1⟩
    obtain ⟨o, ho⟩ := hcr
    unfold Params.crossings at ho
    obtain ⟨e, he, hc⟩ := List.mem_filterMap.1 ho
    have he' : e ∈ es := (List.mem_filter.1 he).1
    have hpt : ∀ p, p = P.proj e.1 ∨ p = P.proj e.2.1 → P.lo.get P.d1 ≤ p.x ∧ p.x ≤ P.up.get P.d1 := by
      intro p hp
      have : p ∈ P.points es := List.mem_flatMap.2 ⟨e, he', by simpa using hp⟩
      have := hg.within p this
      exact ⟨this.1, this.2.1⟩
    have h1 : P.lo.get P.d1 ≤ (P.ends e.1 e.2.1).1.x ∧ (P.ends e.1 e.2.1).1.x ≤ P.up.get P.d1 := by
      unfold Params.ends
      split
      · exact hpt _ (Or.inl rfl)
      · exact hpt _ (Or.inr rfl)
    have h2 : P.lo.get P.d1 ≤ (P.ends e.1 e.2.1).2.x ∧ (P.ends e.1 e.2.1).2.x ≤ P.up.get P.d1 := by
      unfold Params.ends
      split
      · exact hpt _ (Or.inr rfl)
      · exact hpt _ (Or.inl rfl)
    unfold Params.crossing Params.crossingOf at hc
    split at hc
    · cases hc; exact h1
    · split at hc
      · cases hc; exact h2
      · exact absurd hc (by simp)
  have hvs : ∀ v ∈ vs, (P.lo.get P.d1 ≤ v.1 ∧ v.1 ≤ P.up.get P.d1) ∨ v.1 = P.lo.get P.d1 ∨ v.1 = P.up.get P.d1 := by
    intro v hv
    rw [hpl.2.2] at hv
    rcases List.mem_append.1 hv with h | h
    · rcases List.mem_append.1 h with h | h
      · split at h
        · exact absurd h (by simp)
        · simp only [List.mem_singleton] at h; rw [h]; exact Or.inr (Or.inl rfl)
      · exact Or.inl (hmid v h)
    · split at h
      · exact absurd h (by simp)
      · simp only [List.mem_singleton] at h; rw [h]; exact Or.inr (Or.inr rfl)
  have hcov : ∀ l : List (K × Bool), ∀ e ∈ P.covered l, (e.1.y = P.up.get P.d2 ∧ e.2.y = P.up.get P.d2) ∧ (∃ v ∈ l, v.1 = e.1.x) ∧ ∃ v ∈ l, v.1 = e.2.x := by
    intro l
    induction l with
    | nil => intro e he; simp [Params.covered] at he
    | cons a l ih =>
      cases l with
      | nil => intro e he; simp [Params.covered] at he
      | cons b l =>
        intro e he
        rw [Params.covered] at he
        rcases List.mem_append.1 he with h | h
        · split at h
          · simp only [List.mem_singleton] at h
            subst h
            exact ⟨⟨rfl, rfl⟩, ⟨a, by simp, rfl⟩, ⟨b, by simp, rfl⟩⟩
          · exact absurd h (by simp)
        · obtain ⟨h1, ⟨v, hv, h2⟩, w, hw, h3⟩ := ih e h
          exact ⟨h1, ⟨v, by simp [List.mem_cons.1 hv], h2⟩, w, by simp [List.mem_cons.1 hw], h3⟩
  intro e he
  have hmem : e ∈ P.covered vs := by
    by_cases hf : P.isEnd es P.topLeft = false ∧ P.isEnd es P.topRight = false ∧ mid = []
    · obtain ⟨y, -, ht⟩ := hto.2 hf
      rw [ht] at he
      split at he
      · exact he
      · exact absurd he (by simp)
    · rwa [hto.1 hf] at he
  obtain ⟨h1, ⟨v, hv, h2⟩, w, hw, h3⟩ := hcov vs e hmem
  refine ⟨h1, ?_, ?_⟩
  · rw [← h2]
    rcases hvs v hv with h | h | h
    · exact Or.inl h.1
    · exact Or.inl h.ge
    · exact Or.inr h
  · rw [← h3]
    rcases hvs w hw with h | h | h
    · exact Or.inl h.2
    · exact Or.inr h
    · exact Or.inl h.le

/-- The ends of an edge are those of a given edge. -/
theorem ends_of_points {P : Params K} {es : List (Given K)} {o : Orient} {e : Given K} (he : e ∈ P.ofOrient o es) :
    (P.ends e.1 e.2.1).1 ∈ P.points es ∧ (P.ends e.1 e.2.1).2 ∈ P.points es := by
  have he' : e ∈ es := (List.mem_filter.1 he).1
  have h1 : P.proj e.1 ∈ P.points es := List.mem_flatMap.2 ⟨e, he', by simp⟩
  have h2 : P.proj e.2.1 ∈ P.points es := List.mem_flatMap.2 ⟨e, he', by simp⟩
  unfold Params.ends
  split
  · exact ⟨h1, h2⟩
  · exact ⟨h2, h1⟩

/-- The rim of a cap together with its contour runs along the sides of the face. -/
theorem face_rim {P : Params K} (hP : P.Sound) (hA : P.Axes) (hlu : P.lo.get P.d1 < P.up.get P.d1) {es : List (Given K)}
    (hg : P.General es) (hr : ∀ e ∈ es, P.Runs e)
    {mid vs : List (K × Bool)} {tops : List (P2 K × P2 K)} (hpl : P.Places es mid vs) (hto : P.TopEdges es mid vs tops) {U N : List (P2 K × P2 K)}
    (hU : U = ((P.ofOrient .positive es).map fun e => P.ends e.1 e.2.1) ++ tops) (hN : N = (P.ofOrient .negative es).map fun e => P.ends e.1 e.2.1)
    (hright : ∀ e ∈ U ++ N, e.1.x < e.2.x)
    (hdeg : ∀ x, P.lo.get P.d1 < x → x < P.up.get P.d1 → P.degree es tops ⟨x, P.up.get P.d2⟩ = 0) {cTL cTR cLR : K}
    (hTL : cTL = (tops.map fun e => isAt P.topLeft e.1).sum) (hTR : cTR = (tops.map fun e => isAt P.topRight e.2).sum)
    (hLR : cLR = (U.map fun e => if e.2.x = P.up.get P.d1 then (1 : K) else 0).sum - (N.map fun e => if e.2.x = P.up.get P.d1 then (1 : K) else 0).sum)
    {Q : P2 K → P2 K → K} (hQ : Quantity Q) :
    P.turn * ((U.map (wall Q (P.lo.get P.d2))).sum - (N.map (wall Q (P.lo.get P.d2))).sum) + (es.map fun e => Q (P.proj e.1) (P.proj e.2.1)).sum =
      (es.map fun e => P.short Q (P.proj e.2.1) - P.short Q (P.proj e.1)).sum +
        P.turn * (cLR * Q P.lowLeft P.lowRight + cTR * Q P.lowRight P.topRight - cTL * Q P.lowLeft P.topLeft - cTR * Q P.topLeft P.topRight) := by
  have htops : ∀ e ∈ tops, (e.1.y = P.up.get P.d2 ∧ e.2.y = P.up.get P.d2) ∧ P.lo.get P.d1 ≤ e.1.x ∧ e.2.x ≤ P.up.get P.d1 ∧ e.1.x < e.2.x := by
    intro e he
    obtain ⟨h1, h2, h3⟩ := tops_ends hg hpl hto e he
    have hlt := hright e (by rw [hU]; simp [he])
    refine ⟨h1, ?_, ?_, hlt⟩
    · rcases h2 with h | h
      · exact h
      · rcases h3 with k | k <;> linarith
    · rcases h3 with h | h
      · exact h
      · rcases h2 with k | k <;> linarith
  -- the way up
  have s1 : P.turn * ((U.map (wall Q (P.lo.get P.d2))).sum - (N.map (wall Q (P.lo.get P.d2))).sum) + (es.map fun e => Q (P.proj e.1) (P.proj e.2.1)).sum =
      (es.map fun e => P.way Q (P.proj e.2.1) - P.way Q (P.proj e.1)).sum + P.turn * (tops.map (wall Q (P.lo.get P.d2))).sum := by
    have := oriented_sum hP hA hg hr (D := fun a b => P.way Q b - P.way Q a - Q a b) (by intro a b; rw [hQ.swap a b]; ring) (by
      intro e he
      have hx := (hg.vertical e he).1
      have hx' : (P.proj e.1).x = (P.proj e.2.1).x := by
        unfold Params.ends at hx
        split at hx
        · exact hx
        · exact hx.symm
      unfold Params.way
      generalize P.proj e.1 = a at hx' ⊢
      generalize P.proj e.2.1 = b at hx' ⊢
      obtain ⟨ax, ay⟩ := a
      obtain ⟨bx, by'⟩ := b
      dsimp only at hx' ⊢
      subst hx'
      rw [hQ.vert ax (P.lo.get P.d2) ay by']
      ring)
    rw [sum_map_sub] at this
    rw [hU, hN, List.map_append, List.sum_append, List.map_map, List.map_map]
    have e1 : ∀ o, (List.map ((wall Q (P.lo.get P.d2)) ∘ fun e => P.ends e.1 e.2.1) (P.ofOrient o es)) =
        (P.ofOrient o es).map fun e => P.way Q (P.ends e.1 e.2.1).2 - P.way Q (P.ends e.1 e.2.1).1 - Q (P.ends e.1 e.2.1).1 (P.ends e.1 e.2.1).2 := by
      intro o
      refine List.map_congr_left fun e _ => ?_
      exact wall_way hQ _
    rw [e1, e1]
    linear_combination -this
  -- the points of the contour
  have s2 : ∀ p ∈ P.points es, P.way Q p = P.short Q p + P.inRight p * Q P.lowLeft P.lowRight + P.inTop p * (P.way Q p - Q P.topLeft p) := by
    intro p hp
    obtain ⟨w1, w2, w3⟩ := hg.within p hp
    obtain ⟨x, y⟩ := p
    simp only at w1 w2 w3
    unfold Params.short Params.inRight Params.inTop
    dsimp only
    by_cases h1 : x = P.lo.get P.d1
    · subst h1
      rw [if_pos rfl, if_neg hlu.ne, if_neg (fun h => lt_irrefl _ h.2.1)]
      unfold Params.way Params.lowLeft
      dsimp only
      rw [hQ.self]; ring
    · rw [if_neg h1]
      by_cases h2 : x = P.up.get P.d1
      · subst h2
        rw [if_pos rfl, if_pos rfl, if_neg (fun h => lt_irrefl _ h.2.2)]
        unfold Params.way Params.lowLeft Params.lowRight
        dsimp only
        ring
      · rw [if_neg h2, if_neg h2]
        by_cases h3 : y = P.lo.get P.d2
        · by_cases h4 : y = P.up.get P.d2
          · rw [if_pos h3, if_pos ⟨h4, lt_of_le_of_ne w1 (Ne.symm h1), lt_of_le_of_ne w2 h2⟩]
            have e : P.topLeft = P.lowLeft := by unfold Params.topLeft Params.lowLeft; rw [← h3, ← h4]
            rw [e]; ring
          · rw [if_pos h3, if_neg (fun h => h4 h.1)]
            unfold Params.way Params.lowLeft
            subst h3
            dsimp only
            rw [hQ.self]; ring
        · rw [if_neg h3]
          by_cases h4 : y = P.up.get P.d2
          · rw [if_pos h4, if_pos ⟨h4, lt_of_le_of_ne w1 (Ne.symm h1), lt_of_le_of_ne w2 h2⟩]; ring
          · rw [if_neg h4, if_neg (fun h => h4 h.1)]; ring
  have s2' : (es.map fun e => P.way Q (P.proj e.2.1) - P.way Q (P.proj e.1)).sum = (es.map fun e => P.short Q (P.proj e.2.1) - P.short Q (P.proj e.1)).sum +
      Q P.lowLeft P.lowRight * (es.map fun e => P.inRight (P.proj e.2.1) - P.inRight (P.proj e.1)).sum +
      (es.map fun e => P.inTop (P.proj e.2.1) * (P.way Q (P.proj e.2.1) - Q P.topLeft (P.proj e.2.1)) -
        P.inTop (P.proj e.1) * (P.way Q (P.proj e.1) - Q P.topLeft (P.proj e.1))).sum := by
    rw [← sum_map_mul, ← sum_map_add, ← sum_map_add]
    congr 1
    refine List.map_congr_left fun e he => ?_
    have h1 := s2 (P.proj e.1) (List.mem_flatMap.2 ⟨e, he, by simp⟩)
    have h2 := s2 (P.proj e.2.1) (List.mem_flatMap.2 ⟨e, he, by simp⟩)
    linear_combination h2 - h1
  -- the right side
  have s3 : (es.map fun e => P.inRight (P.proj e.2.1) - P.inRight (P.proj e.1)).sum = P.turn * (cLR - cTR) := by
    have := oriented_sum hP hA hg hr (D := fun a b => P.inRight b - P.inRight a) (by intro a b; ring) (by
      intro e he
      have hx := (hg.vertical e he).1
      have hx' : (P.proj e.1).x = (P.proj e.2.1).x := by
        unfold Params.ends at hx
        split at hx
        · exact hx
        · exact hx.symm
      unfold Params.inRight
      rw [hx']; ring)
    rw [this]
    have e1 : ∀ o, (∀ e ∈ P.ofOrient o es, (P.ends e.1 e.2.1).1.x < (P.ends e.1 e.2.1).2.x) →
        ((P.ofOrient o es).map fun e => P.inRight (P.ends e.1 e.2.1).2 - P.inRight (P.ends e.1 e.2.1).1) =
        (P.ofOrient o es).map fun e => if (P.ends e.1 e.2.1).2.x = P.up.get P.d1 then (1 : K) else 0 := by
      intro o ho
      refine List.map_congr_left fun e he => ?_
      have := (hg.within _ (ends_of_points he).2).2.1
      have hlt := ho e he
      have h0 : P.inRight (P.ends e.1 e.2.1).1 = 0 := if_neg (by intro h; rw [h] at hlt; exact absurd (lt_of_lt_of_le hlt this) (lt_irrefl _))
      rw [h0, sub_zero]
      rfl
    have e2 : (tops.map fun e => if e.2.x = P.up.get P.d1 then (1 : K) else 0).sum = cTR := by
      rw [hTR]
      congr 1
      refine List.map_congr_left fun e he => ?_
      unfold isAt Params.topRight
      have := (htops e he).1.2
      simp [this]
    rw [hLR, hU, hN, List.map_append, List.sum_append, e2, List.map_map, List.map_map, e1, e1]
    · simp only [Function.comp_def]; ring
    · intro e he; exact hright _ (by rw [hN]; exact List.mem_append_right _ (List.mem_map.2 ⟨e, he, rfl⟩))
    · intro e he; exact hright _ (by rw [hU]; exact List.mem_append_left _ (List.mem_append_left _ (List.mem_map.2 ⟨e, he, rfl⟩)))
  -- the upper side
  have s4 : (es.map fun e => P.inTop (P.proj e.2.1) * (P.way Q (P.proj e.2.1) - Q P.topLeft (P.proj e.2.1)) -
        P.inTop (P.proj e.1) * (P.way Q (P.proj e.1) - Q P.topLeft (P.proj e.1))).sum +
      P.turn * (tops.map fun e => P.inTop e.2 * (P.way Q e.2 - Q P.topLeft e.2) - P.inTop e.1 * (P.way Q e.1 - Q P.topLeft e.1)).sum = 0 := by
    have := weights_zero ((es.flatMap fun e => [((1 : K), P.proj e.2.1), (-1, P.proj e.1)]) ++ tops.flatMap fun e => [(P.turn, e.2), (-P.turn, e.1)])
      (fun p => p.y = P.up.get P.d2 ∧ P.lo.get P.d1 < p.x ∧ p.x < P.up.get P.d1) (by
        rintro ⟨x, y⟩ ⟨hy, h1, h2⟩
        simp only at hy h1 h2
        subst hy
        have hd := hdeg x h1 h2
        unfold Params.degree at hd
        rw [← hd, List.map_append, List.sum_append, ← sum_map_mul]
        congr 1
        · clear hd; generalize es = l
          induction l with
          | nil => rfl
          | cons e l ih => simp only [List.flatMap_cons, List.cons_append, List.nil_append, List.map_cons, List.sum_cons, ih]; ring
        · clear hd hTL hTR; generalize tops = l
          induction l with
          | nil => rfl
          | cons e l ih => simp only [List.flatMap_cons, List.cons_append, List.nil_append, List.map_cons, List.sum_cons, ih]; ring)
      (fun p => P.way Q p - Q P.topLeft p)
    rw [← this, List.map_append, List.sum_append, ← sum_map_mul]
    simp only [Params.inTop]
    congr 1
    · generalize es = l
      induction l with
      | nil => rfl
      | cons e l ih => simp only [List.flatMap_cons, List.cons_append, List.nil_append, List.map_cons, List.sum_cons, ih]; ring
    · generalize tops = l
      induction l with
      | nil => rfl
      | cons e l ih => simp only [List.flatMap_cons, List.cons_append, List.nil_append, List.map_cons, List.sum_cons, ih]; ring
  -- the closed parts
  have s5 : (tops.map (wall Q (P.lo.get P.d2))).sum = (tops.map fun e => P.inTop e.2 * (P.way Q e.2 - Q P.topLeft e.2) - P.inTop e.1 * (P.way Q e.1 - Q P.topLeft e.1)).sum +
      (cTR * (Q P.lowLeft P.lowRight + Q P.lowRight P.topRight - Q P.topLeft P.topRight) - cTL * Q P.lowLeft P.topLeft) := by
    have e1 : cTR * (Q P.lowLeft P.lowRight + Q P.lowRight P.topRight - Q P.topLeft P.topRight) - cTL * Q P.lowLeft P.topLeft =
        (tops.map fun e => (Q P.lowLeft P.lowRight + Q P.lowRight P.topRight - Q P.topLeft P.topRight) * isAt P.topRight e.2 - Q P.lowLeft P.topLeft * isAt P.topLeft e.1).sum := by
      rw [sum_map_sub, sum_map_mul, sum_map_mul, ← hTR, ← hTL]; ring
    rw [e1, ← sum_map_add]
    congr 1
    refine List.map_congr_left fun e he => ?_
    obtain ⟨⟨y1, y2⟩, x1, x2, hlt⟩ := htops e he
    obtain ⟨⟨ax, ay⟩, ⟨bx, by'⟩⟩ := e
    simp only at y1 y2 x1 x2 hlt
    subst y1 y2
    rw [wall_way hQ]
    dsimp only
    have hh : Q ⟨ax, P.up.get P.d2⟩ ⟨bx, P.up.get P.d2⟩ = Q P.topLeft ⟨bx, P.up.get P.d2⟩ - Q P.topLeft ⟨ax, P.up.get P.d2⟩ := by
      unfold Params.topLeft
      rw [hQ.hor (P.up.get P.d2) (P.lo.get P.d1) ax bx]; ring
    have hb : P.way Q ⟨bx, P.up.get P.d2⟩ - Q P.topLeft ⟨bx, P.up.get P.d2⟩ = P.inTop ⟨bx, P.up.get P.d2⟩ * (P.way Q ⟨bx, P.up.get P.d2⟩ - Q P.topLeft ⟨bx, P.up.get P.d2⟩) +
        (Q P.lowLeft P.lowRight + Q P.lowRight P.topRight - Q P.topLeft P.topRight) * isAt P.topRight ⟨bx, P.up.get P.d2⟩ := by
      unfold Params.inTop isAt Params.topRight
      by_cases h : bx = P.up.get P.d1
      · subst h
        rw [if_neg (fun h => lt_irrefl _ h.2.2), if_pos ⟨rfl, rfl⟩]
        unfold Params.way Params.lowRight
        dsimp only
        ring
      · rw [if_pos ⟨rfl, by linarith, lt_of_le_of_ne x2 h⟩, if_neg (fun k => h k.1)]
        ring
    have ha : P.way Q ⟨ax, P.up.get P.d2⟩ - Q P.topLeft ⟨ax, P.up.get P.d2⟩ = P.inTop ⟨ax, P.up.get P.d2⟩ * (P.way Q ⟨ax, P.up.get P.d2⟩ - Q P.topLeft ⟨ax, P.up.get P.d2⟩) +
        Q P.lowLeft P.topLeft * isAt P.topLeft ⟨ax, P.up.get P.d2⟩ := by
      unfold Params.inTop isAt Params.topLeft
      by_cases h : ax = P.lo.get P.d1
      · subst h
        rw [if_neg (fun h => lt_irrefl _ h.2.1), if_pos ⟨rfl, rfl⟩]
        unfold Params.way Params.lowLeft
        dsimp only
        rw [hQ.self, hQ.self]
        ring
      · rw [if_pos ⟨rfl, lt_of_le_of_ne x1 (Ne.symm h), by linarith⟩, if_neg (fun k => h k.1)]
        ring
    rw [hh]
    linear_combination hb - ha
  rw [s1, s2', s3, s5]
  linear_combination s4

end QuESo.Plane
