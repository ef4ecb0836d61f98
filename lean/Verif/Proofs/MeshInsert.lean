import Verif.Spec.IO
import Mathlib.Tactic.Linarith
import Mathlib.Data.List.Basic

/-! # Proofs about meshes built from corners -/
namespace QuESo.IO
open QuESo.Spec

/-! ## Meshes -/
variable {K : Type _}

theorem mapM_range_some {α : Type _} (f : Nat → Option α) (n : Nat) (l : List α) (h : (List.range n).mapM f = some l) :
    l.length = n ∧ ∀ i, i < n → f i = l[i]? := by
  induction n generalizing l with
  | zero => simp at h; subst h; simp
  | succ n ih =>
    rw [List.range_succ, List.mapM_append] at h
    simp only [Option.bind_eq_bind] at h
    obtain ⟨l1, h1, h⟩ := Option.bind_eq_some_iff.1 h
    obtain ⟨l2, h2, h⟩ := Option.bind_eq_some_iff.1 h
    simp only [List.mapM_cons, List.mapM_nil, Option.bind_eq_bind, Option.pure_def] at h2
    obtain ⟨a, ha, h2⟩ := Option.bind_eq_some_iff.1 h2
    simp only [Option.bind_some, Option.some.injEq] at h2
    subst h2
    simp only [Option.pure_def, Option.some.injEq] at h
    subst h
    obtain ⟨i1, i2⟩ := ih l1 h1
    refine ⟨by simp [i1], fun i hi => ?_⟩
    by_cases hin : i < n
    · rw [i2 i hin, List.getElem?_append_left (by omega)]
    · have : i = n := by omega
      subst this
      rw [ha, List.getElem?_append_right (by omega), i1, Nat.sub_self]
      rfl

theorem visit_spec {m : Mesh K} {ts : List (Tri K)} (h : m.visit = some ts) :
    ts.length = m.triangles.length ∧
      ∀ i, m.corners i = (ts[i]?).map (fun t => (⟨t.p1, t.p2, t.p3⟩ : V3 (V3 K))) := by
  obtain ⟨h1, h2⟩ := mapM_range_some _ _ _ h
  refine ⟨h1, fun i => ?_⟩
  by_cases hi : i < m.triangles.length
  · have := h2 i hi
    obtain ⟨t, ht⟩ : ∃ t, ts[i]? = some t := ⟨_, List.getElem?_eq_getElem (by omega)⟩
    rw [ht] at this ⊢
    unfold Mesh.triangle at this
    cases hc : m.corners i with
    | none => rw [hc] at this; simp at this
    | some c =>
      rw [hc] at this
      cases hn : m.normals[i]? with
      | none => rw [hn] at this; simp at this
      | some nrm =>
        rw [hn] at this
        simp only [Option.some.injEq] at this
        subst this
        rfl
  · rw [List.getElem?_eq_none (by omega)]
    unfold Mesh.corners
    rw [List.getElem?_eq_none (by omega)]
    rfl

theorem mapM_range_exists {α : Type _} (f : Nat → Option α) (n : Nat) (h : ∀ i, i < n → (f i).isSome) :
    ∃ l, (List.range n).mapM f = some l := by
  induction n with
  | zero => exact ⟨[], rfl⟩
  | succ n ih =>
    obtain ⟨l, hl⟩ := ih (fun i hi => h i (by omega))
    obtain ⟨a, ha⟩ := Option.isSome_iff_exists.1 (h n (by omega))
    refine ⟨l ++ [a], ?_⟩
    rw [List.range_succ, List.mapM_append, hl]
    simp [ha]

theorem check_iff {m : Mesh K} : m.check = true ↔ m.triangles.length = m.normals.length ∧
    ∀ t ∈ m.triangles, t.x < m.vertices.length ∧ t.y < m.vertices.length ∧ t.z < m.vertices.length := by
  unfold Mesh.check
  simp [List.all_eq_true, and_assoc]

theorem corners_some {m : Mesh K} (h : m.check = true) {i : Nat} (hi : i < m.triangles.length) :
    ∃ c, m.corners i = some c := by
  obtain ⟨h1, h2, h3⟩ := (check_iff.1 h).2 _ (List.getElem_mem hi)
  unfold Mesh.corners
  rw [List.getElem?_eq_getElem hi]
  simp only
  rw [List.getElem?_eq_getElem h1, List.getElem?_eq_getElem h2, List.getElem?_eq_getElem h3]
  exact ⟨_, rfl⟩

theorem check_visit {m : Mesh K} (h : m.check = true) : ∃ ts, m.visit = some ts := by
  refine mapM_range_exists _ _ fun i hi => ?_
  obtain ⟨c, hc⟩ := corners_some h hi
  unfold Mesh.triangle
  rw [hc, List.getElem?_eq_getElem (by rw [← (check_iff.1 h).1]; exact hi)]
  rfl

/-! ## Insertion of triangles -/

/-- Insertion of three corners and of the triangle. -/
def addCorners (lookup : List (V3 K) → V3 K → Option Nat) (normalOf : V3 K → V3 K → V3 K → V3 K) (m : Mesh K)
    (c : V3 (V3 K)) : Mesh K :=
  let i1 := insertVertex lookup m c.x
  let i2 := insertVertex lookup i1.1 c.y
  let i3 := insertVertex lookup i2.1 c.z
  i3.1.addTriangle ⟨i1.2.1, i2.2.1, i3.2.1⟩ (normalOf i1.2.2 i2.2.2 i3.2.2)

/-- Every answer refers to a key. -/
def ValidLookup (lookup : List (V3 K) → V3 K → Option Nat) : Prop :=
  ∀ keys v i, lookup keys v = some i → i < keys.length

/-- What insertion does to the mesh apart from the index found. -/
theorem insert_any (lookup : List (V3 K) → V3 K → Option Nat) {m : Mesh K} {v : V3 K}
    (hv : ∀ i, lookup m.vertices v = some i → i < m.vertices.length) :
    (insertVertex lookup m v).1.triangles = m.triangles ∧ (insertVertex lookup m v).1.normals = m.normals ∧
    (insertVertex lookup m v).2.1 < (insertVertex lookup m v).1.vertices.length ∧
    ∃ e, (insertVertex lookup m v).1.vertices = m.vertices ++ e := by
  unfold insertVertex
  cases h : lookup m.vertices v with
  | none => exact ⟨rfl, rfl, by simp [Mesh.addVertex], [v], rfl⟩
  | some i => exact ⟨rfl, rfl, hv i h, [], by simp⟩

theorem addCorners_any {lookup : List (V3 K) → V3 K → Option Nat} (hl : ValidLookup lookup)
    (normalOf : V3 K → V3 K → V3 K → V3 K) {m : Mesh K} (hm : m.check = true) (c : V3 (V3 K)) :
    (addCorners lookup normalOf m c).check = true ∧
    (addCorners lookup normalOf m c).triangles.length = m.triangles.length + 1 := by
  obtain ⟨a1, a2, a3, e1, a4⟩ := insert_any lookup (m := m) (v := c.x) (fun i => hl _ _ i)
  obtain ⟨b1, b2, b3, e2, b4⟩ := insert_any lookup (m := (insertVertex lookup m c.x).1) (v := c.y) (fun i => hl _ _ i)
  obtain ⟨c1, c2, c3, e3, c4⟩ := insert_any lookup
    (m := (insertVertex lookup (insertVertex lookup m c.x).1 c.y).1) (v := c.z) (fun i => hl _ _ i)
  obtain ⟨h1, h2⟩ := check_iff.1 hm
  unfold addCorners
  simp only [Mesh.addTriangle]
  constructor
  · rw [check_iff]
    simp only
    rw [c1, c2, b1, b2, a1, a2]
    refine ⟨by simp [h1], fun t ht => ?_⟩
    have l1 : (insertVertex lookup m c.x).1.vertices.length = m.vertices.length + e1.length := by rw [a4]; simp
    have l2 : (insertVertex lookup (insertVertex lookup m c.x).1 c.y).1.vertices.length = m.vertices.length + e1.length + e2.length := by
      rw [b4]; simp [l1]
    have l3 : (insertVertex lookup (insertVertex lookup (insertVertex lookup m c.x).1 c.y).1 c.z).1.vertices.length =
        m.vertices.length + e1.length + e2.length + e3.length := by
      rw [c4]; simp [l2]
    rcases List.mem_append.1 ht with ht | ht
    · obtain ⟨x1, x2, x3⟩ := h2 t ht
      rw [l3]
      refine ⟨by omega, by omega, by omega⟩
    · rw [List.mem_singleton] at ht
      subst ht
      simp only
      rw [l3]
      rw [l1] at a3; rw [l2] at b3; rw [l3] at c3
      refine ⟨by omega, by omega, by omega⟩
  · rw [c1, b1, a1]; simp

theorem addAll_any {lookup : List (V3 K) → V3 K → Option Nat} (hl : ValidLookup lookup)
    (normalOf : V3 K → V3 K → V3 K → V3 K) (cs : List (V3 (V3 K))) {m : Mesh K} (hm : m.check = true) :
    (cs.foldl (addCorners lookup normalOf) m).check = true ∧
    (cs.foldl (addCorners lookup normalOf) m).triangles.length = m.triangles.length + cs.length := by
  induction cs generalizing m with
  | nil => exact ⟨hm, rfl⟩
  | cons c cs ih =>
    obtain ⟨h1, h2⟩ := addCorners_any hl normalOf hm c
    obtain ⟨h3, h4⟩ := ih h1
    exact ⟨h3, by simp only [List.foldl_cons, List.length_cons]; omega⟩

section order
variable [Field K] [LinearOrder K] [IsStrictOrderedRing K]

/-- Lexicographic order. -/
def LexLt (a b : V3 K) : Prop := a.x < b.x ∨ (a.x = b.x ∧ (a.y < b.y ∨ (a.y = b.y ∧ a.z < b.z)))

theorem close_iff {tol x y : K} (ht : 0 < tol) (h : x = y ∨ tol < |x - y|) :
    (max (x - y) (-(x - y)) < tol ↔ x = y) ∧ (x - y < -tol ↔ x < y) := by
  have habs : max (x - y) (-(x - y)) = |x - y| := rfl
  rw [habs]
  rcases h with rfl | h
  · simp only [sub_self, abs_zero, lt_self_iff_false, iff_false, not_lt]
    exact ⟨by simp [ht], by linarith⟩
  · constructor
    · constructor
      · intro h'; exact absurd h' (not_lt.2 h.le)
      · rintro rfl; simp at h; linarith
    · constructor
      · intro h'; linarith
      · intro h'
        rw [abs_of_neg (by linarith)] at h
        linarith

theorem pointLt_iff {tol : K} (ht : 0 < tol) {l : List (V3 K)} (hs : Separated tol l) {a b : V3 K} (ha : a ∈ l) (hb : b ∈ l) :
    pointLt tol a b = true ↔ LexLt a b := by
  obtain ⟨h1, h2, h3⟩ := hs a ha b hb
  obtain ⟨x1, x2⟩ := close_iff ht h1
  obtain ⟨y1, y2⟩ := close_iff ht h2
  obtain ⟨z1, z2⟩ := close_iff ht h3
  unfold pointLt LexLt
  by_cases hx : a.x = b.x
  · rw [if_pos (x1.2 hx)]
    by_cases hy : a.y = b.y
    · rw [if_pos (y1.2 hy)]
      simp [hx, hy, z2]
    · rw [if_neg (fun h => hy (y1.1 h))]
      simp [hx, hy, y2]
  · rw [if_neg (fun h => hx (x1.1 h))]
    simp [hx, x2]

theorem lex_trans {a b c : V3 K} (h1 : LexLt a b) (h2 : LexLt b c) : LexLt a c := by
  unfold LexLt at *
  rcases h1 with h1 | ⟨e1, h1 | ⟨e2, h1⟩⟩
  · rcases h2 with h2 | ⟨f1, _⟩
    · exact Or.inl (h1.trans h2)
    · exact Or.inl (f1 ▸ h1)
  · rcases h2 with h2 | ⟨f1, h2 | ⟨f2, _⟩⟩
    · exact Or.inl (e1 ▸ h2)
    · exact Or.inr ⟨e1.trans f1, Or.inl (h1.trans h2)⟩
    · exact Or.inr ⟨e1.trans f1, Or.inl (f2 ▸ h1)⟩
  · rcases h2 with h2 | ⟨f1, h2 | ⟨f2, h2⟩⟩
    · exact Or.inl (e1 ▸ h2)
    · exact Or.inr ⟨e1.trans f1, Or.inl (e2 ▸ h2)⟩
    · exact Or.inr ⟨e1.trans f1, Or.inr ⟨e2.trans f2, h1.trans h2⟩⟩

theorem lex_irrefl (a : V3 K) : ¬ LexLt a a := by simp [LexLt]

theorem lex_eq {a b : V3 K} (h1 : ¬ LexLt a b) (h2 : ¬ LexLt b a) : a = b := by
  obtain ⟨ax, ay, az⟩ := a
  obtain ⟨bx, by', bz⟩ := b
  unfold LexLt at *
  simp only [not_or, not_and, not_lt] at h1 h2
  have hx : ax = bx := le_antisymm h2.1 h1.1
  have hy : ay = by' := le_antisymm (h2.2 hx.symm).1 (h1.2 hx).1
  have hz : az = bz := le_antisymm ((h2.2 hx.symm).2 hy.symm) ((h1.2 hx).2 hy)
  rw [hx, hy, hz]

theorem separated_weak {tol : K} (ht : 0 < tol) {l : List (V3 K)} (hs : Separated tol l) :
    StrictWeakOn (pointLt tol) l := by
  have hT := fun {a b} (ha : a ∈ l) (hb : b ∈ l) => pointLt_iff ht hs ha hb
  have hF : ∀ {a b} (_ : a ∈ l) (_ : b ∈ l), pointLt tol a b = false ↔ ¬ LexLt a b := by
    intro a b ha hb
    rw [← hT ha hb]; simp
  refine ⟨fun a ha => (hF ha ha).2 (lex_irrefl a), ?_, ?_⟩
  · intro a ha b hb c hc h1 h2
    exact (hT ha hc).2 (lex_trans ((hT ha hb).1 h1) ((hT hb hc).1 h2))
  · intro a ha b hb c hc h1 h2 h3 h4
    have e1 := lex_eq ((hF ha hb).1 h1) ((hF hb ha).1 h2)
    have e2 := lex_eq ((hF hb hc).1 h3) ((hF hc hb).1 h4)
    subst e1; subst e2
    exact ⟨h1, h1⟩

theorem separated_mono {tol : K} {l l' : List (V3 K)} (h : ∀ a ∈ l', a ∈ l) (hs : Separated tol l) : Separated tol l' :=
  fun a ha b hb => hs a (h a ha) b (h b hb)

theorem insert_exact {tol : K} (ht : 0 < tol) {S : List (V3 K)} (hS : Separated tol S)
    {lookup : List (V3 K) → V3 K → Option Nat} (hl : MapLookup (pointLt tol) lookup) {m : Mesh K}
    (hm : ∀ a ∈ m.vertices, a ∈ S) {v : V3 K} (hv : v ∈ S) :
    (insertVertex lookup m v).1.triangles = m.triangles ∧ (insertVertex lookup m v).1.normals = m.normals ∧
    (∃ e, (insertVertex lookup m v).1.vertices = m.vertices ++ e) ∧
    (∀ a ∈ (insertVertex lookup m v).1.vertices, a ∈ S) ∧
    (insertVertex lookup m v).1.vertices[(insertVertex lookup m v).2.1]? = some v := by
  have hsub : ∀ a ∈ v :: m.vertices, a ∈ S := by
    intro a ha
    rcases List.mem_cons.1 ha with rfl | ha
    · exact hv
    · exact hm a ha
  obtain ⟨h1, h2⟩ := hl m.vertices v (separated_weak ht (separated_mono hsub hS))
  unfold insertVertex
  cases h : lookup m.vertices v with
  | none =>
    refine ⟨rfl, rfl, ⟨[v], rfl⟩, ?_, by simp [Mesh.addVertex]⟩
    intro a ha
    rcases List.mem_append.1 ha with ha | ha
    · exact hm a ha
    · rw [List.mem_singleton] at ha; subst ha; exact hv
  | some i =>
    obtain ⟨k, hk, k1, k2⟩ := h1 i h
    refine ⟨rfl, rfl, ⟨[], by simp⟩, hm, ?_⟩
    simp only
    have hkS := hm k (List.mem_of_getElem? hk)
    have : v = k := lex_eq
      (fun hh => by rw [(pointLt_iff ht hS hv hkS).2 hh] at k1; cases k1)
      (fun hh => by rw [(pointLt_iff ht hS hkS hv).2 hh] at k2; cases k2)
    rw [this]; exact hk

/-- A mesh whose triangles have the given corners. -/
def HasCorners (m : Mesh K) (cs : List (V3 (V3 K))) : Prop :=
  m.triangles.length = m.normals.length ∧ m.triangles.length = cs.length ∧ ∀ i, m.corners i = cs[i]?

theorem corners_extend {m m' : Mesh K} {e : List (V3 K)} (hv : m'.vertices = m.vertices ++ e)
    {t : List (V3 Nat)} (ht : m'.triangles = m.triangles ++ t) {i : Nat} {c : V3 (V3 K)} (h : m.corners i = some c) :
    m'.corners i = some c := by
  unfold Mesh.corners at h ⊢
  cases hi : m.triangles[i]? with
  | none => rw [hi] at h; cases h
  | some tr =>
    rw [hi] at h
    simp only at h
    have hlt := (List.getElem?_eq_some_iff.1 hi).1
    rw [ht, List.getElem?_append_left hlt, hi]
    simp only
    cases h1 : m.vertices[tr.x]? with
    | none => rw [h1] at h; simp at h
    | some a =>
      cases h2 : m.vertices[tr.y]? with
      | none => rw [h1, h2] at h; simp at h
      | some b =>
        cases h3 : m.vertices[tr.z]? with
        | none => rw [h1, h2, h3] at h; simp at h
        | some d =>
          rw [h1, h2, h3] at h
          rw [hv, List.getElem?_append_left (List.getElem?_eq_some_iff.1 h1).1,
            List.getElem?_append_left (List.getElem?_eq_some_iff.1 h2).1,
            List.getElem?_append_left (List.getElem?_eq_some_iff.1 h3).1, h1, h2, h3]
          exact h

theorem addCorners_exact {tol : K} (ht : 0 < tol) {S : List (V3 K)} (hS : Separated tol S)
    {lookup : List (V3 K) → V3 K → Option Nat} (hl : MapLookup (pointLt tol) lookup)
    (normalOf : V3 K → V3 K → V3 K → V3 K) {m : Mesh K} (hm : ∀ a ∈ m.vertices, a ∈ S) {c : V3 (V3 K)}
    (hc : c.x ∈ S ∧ c.y ∈ S ∧ c.z ∈ S) {cs : List (V3 (V3 K))} (hcs : HasCorners m cs) :
    (∀ a ∈ (addCorners lookup normalOf m c).vertices, a ∈ S) ∧ HasCorners (addCorners lookup normalOf m c) (cs ++ [c]) := by
  obtain ⟨a1, a2, ⟨e1, a3⟩, a4, a5⟩ := insert_exact ht hS hl hm hc.1
  obtain ⟨b1, b2, ⟨e2, b3⟩, b4, b5⟩ := insert_exact ht hS hl a4 hc.2.1
  obtain ⟨c1, c2, ⟨e3, c3⟩, c4, c5⟩ := insert_exact ht hS hl b4 hc.2.2
  obtain ⟨h1, h2, h3⟩ := hcs
  refine ⟨c4, ?_, ?_, ?_⟩
  · simp only [addCorners, Mesh.addTriangle, c1, c2, b1, b2, a1, a2, List.length_append, h1, List.length_singleton]
  · simp only [addCorners, Mesh.addTriangle, c1, b1, a1, List.length_append, h2, List.length_singleton]
  · intro i
    by_cases hi : i < cs.length
    · rw [List.getElem?_append_left hi]
      obtain ⟨d, hd⟩ : ∃ d, cs[i]? = some d := ⟨_, List.getElem?_eq_getElem hi⟩
      rw [hd]
      have hmi : m.corners i = some d := by rw [h3 i, hd]
      have hvv : (addCorners lookup normalOf m c).vertices = m.vertices ++ (e1 ++ (e2 ++ e3)) := by
        simp only [addCorners, Mesh.addTriangle, c3, b3, a3, List.append_assoc]
      have htt : ∃ t, (addCorners lookup normalOf m c).triangles = m.triangles ++ t := by
        simp only [addCorners, Mesh.addTriangle, c1, b1, a1]
        exact ⟨_, rfl⟩
      obtain ⟨t, htt⟩ := htt
      exact corners_extend hvv htt hmi
    · by_cases hi2 : i = cs.length
      · subst hi2
        rw [List.getElem?_append_right (Nat.le_refl _), Nat.sub_self]
        unfold Mesh.corners
        simp only [addCorners, Mesh.addTriangle, c1, b1, a1, List.getElem?_cons_zero]
        rw [List.getElem?_append_right (by omega), h2, Nat.sub_self]
        simp only [List.getElem?_cons_zero]
        have b5' := List.getElem?_append_left (l₂ := e3) (List.getElem?_eq_some_iff.1 b5).1
        have a5' := List.getElem?_append_left (l₂ := e2) (List.getElem?_eq_some_iff.1 a5).1
        have hy : (insertVertex lookup (insertVertex lookup (insertVertex lookup m c.x).1 c.y).1 c.z).1.vertices[
            (insertVertex lookup (insertVertex lookup m c.x).1 c.y).2.1]? = some c.y := by
          rw [c3, b5', b5]
        have hx : (insertVertex lookup (insertVertex lookup (insertVertex lookup m c.x).1 c.y).1 c.z).1.vertices[
            (insertVertex lookup m c.x).2.1]? = some c.x := by
          rw [c3, b3, List.append_assoc, List.getElem?_append_left (List.getElem?_eq_some_iff.1 a5).1, a5]
        rw [hx, hy, c5]
      · rw [List.getElem?_eq_none (by simp; omega)]
        unfold Mesh.corners
        rw [List.getElem?_eq_none]
        simp only [addCorners, Mesh.addTriangle, c1, b1, a1, List.length_append, h2, List.length_singleton]
        omega

theorem addAll_exact {tol : K} (ht : 0 < tol) {S : List (V3 K)} (hS : Separated tol S)
    {lookup : List (V3 K) → V3 K → Option Nat} (hl : MapLookup (pointLt tol) lookup)
    (normalOf : V3 K → V3 K → V3 K → V3 K) (cs : List (V3 (V3 K))) (hc : ∀ c ∈ cs, c.x ∈ S ∧ c.y ∈ S ∧ c.z ∈ S)
    {m : Mesh K} (hm : ∀ a ∈ m.vertices, a ∈ S) {cs0 : List (V3 (V3 K))} (h0 : HasCorners m cs0) :
    HasCorners (cs.foldl (addCorners lookup normalOf) m) (cs0 ++ cs) := by
  induction cs generalizing m cs0 with
  | nil => simpa using h0
  | cons c cs ih =>
    obtain ⟨h1, h2⟩ := addCorners_exact ht hS hl normalOf hm (hc c (by simp)) h0
    have := ih (fun c' h' => hc c' (by simp [h'])) h1 h2
    simpa using this

theorem hasCorners_check {m : Mesh K} {cs : List (V3 (V3 K))} (h : HasCorners m cs) : m.check = true := by
  obtain ⟨h1, h2, h3⟩ := h
  rw [check_iff]
  refine ⟨h1, fun t ht => ?_⟩
  obtain ⟨i, hi⟩ := List.mem_iff_getElem?.1 ht
  have hlt := (List.getElem?_eq_some_iff.1 hi).1
  have hci := h3 i
  rw [List.getElem?_eq_getElem (h2 ▸ hlt)] at hci
  unfold Mesh.corners at hci
  rw [hi] at hci
  simp only at hci
  cases e1 : m.vertices[t.x]? with
  | none => rw [e1] at hci; simp at hci
  | some a =>
    cases e2 : m.vertices[t.y]? with
    | none => rw [e1, e2] at hci; simp at hci
    | some b =>
      cases e3 : m.vertices[t.z]? with
      | none => rw [e1, e2, e3] at hci; simp at hci
      | some d => exact ⟨(List.getElem?_eq_some_iff.1 e1).1, (List.getElem?_eq_some_iff.1 e2).1, (List.getElem?_eq_some_iff.1 e3).1⟩

end order

end QuESo.IO
