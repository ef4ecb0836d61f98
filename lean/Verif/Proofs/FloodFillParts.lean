import Verif.Proofs.FloodFillPart

/-! # The slabs, and the groups of all partitions together -/
namespace QuESo.Flood
open QuESo.Grid QuESo.Spec

def slab (n : V3 Nat) (pd size : Nat) (i : Nat) : Partition :=
  ⟨(V3.mk 0 0 0).set pd (size * i), (V3.mk (n.x - 1) (n.y - 1) (n.z - 1)).set pd (min (size * (i + 1)) (coord pd n) - 1)⟩

theorem partitionDir_cases (n : V3 Nat) : partitionDir n = 0 ∨ partitionDir n = 1 ∨ partitionDir n = 2 := by
  unfold partitionDir
  simp only
  split
  · simp
  · split <;> simp

theorem filterMap_range {α} (f : Nat → α) (c : Nat) (T : Nat) :
    (List.range T).filterMap (fun i => if i < c then some (f i) else none) = (List.range (min c T)).map f := by
  induction T with
  | zero => simp
  | succ T ih =>
    rw [List.range_succ, List.filterMap_append, ih]
    by_cases h : T < c
    · rw [show min c (T + 1) = T + 1 by omega, show min c T = T by omega]
      simp [h, List.range_succ]
    · rw [show min c (T + 1) = c by omega, show min c T = c by omega]
      simp [h]

theorem size_pos (num T : Nat) : 0 < partitionSize num T := by unfold partitionSize; omega

/-- number of slabs -/
def slabs (n : V3 Nat) (T : Nat) : Nat :=
  let num := coord (partitionDir n) n
  let size := partitionSize num T
  (num + size - 1) / size

theorem lt_ceil_iff {a size i : Nat} (hs : 0 < size) : size * i < a ↔ i < (a + size - 1) / size := by
  rw [Nat.lt_iff_add_one_le, Nat.lt_iff_add_one_le, Nat.le_div_iff_mul_le hs, Nat.add_mul]
  rw [Nat.mul_comm i size]
  omega

theorem num_le {num T : Nat} (hT : 0 < T) : num ≤ partitionSize num T * T := by
  have h : (num + T - 1) / T ≤ partitionSize num T := by unfold partitionSize; omega
  have h2 : num ≤ (num + T - 1) / T * T := by
    have := Nat.div_add_mod (num + T - 1) T
    have h3 := Nat.mod_lt (num + T - 1) hT
    rw [Nat.mul_comm] at this
    omega
  exact h2.trans (Nat.mul_le_mul_right _ h)

theorem slabs_le (n : V3 Nat) {T : Nat} (hT : 0 < T) : slabs n T ≤ T := by
  unfold slabs
  simp only
  have hs := size_pos (coord (partitionDir n) n) T
  by_contra hc
  have h := (lt_ceil_iff (a := coord (partitionDir n) n) (i := T) hs).2 (by omega)
  have := num_le (num := coord (partitionDir n) n) hT
  omega

theorem partitions_eq (n : V3 Nat) {T : Nat} (hT : 0 < T) :
    partitions n T = (List.range (slabs n T)).map (slab n (partitionDir n) (partitionSize (coord (partitionDir n) n) T)) := by
  have hs := size_pos (coord (partitionDir n) n) T
  have : partitions n T = (List.range T).filterMap (fun i => if i < slabs n T then
      some (slab n (partitionDir n) (partitionSize (coord (partitionDir n) n) T) i) else none) := by
    unfold partitions slabs
    simp only [lt_ceil_iff hs]
    rfl
  rw [this, filterMap_range, min_eq_left (slabs_le n hT)]

theorem partitions_get (n : V3 Nat) {T : Nat} (hT : 0 < T) (k : Nat) (p : Partition) :
    (partitions n T)[k]? = some p ↔ k < slabs n T ∧
      p = slab n (partitionDir n) (partitionSize (coord (partitionDir n) n) T) k := by
  rw [partitions_eq n hT]
  by_cases h : k < slabs n T
  · rw [List.getElem?_map, List.getElem?_range h]
    simp [h, eq_comm]
  · rw [List.getElem?_eq_none (by simpa using h)]
    simp [h]

theorem inPart_slab {n : V3 Nat} {T : Nat} (k : Nat) (hk : k < slabs n T) (v : V3 Nat) (hn : InGrid n ⟨0, 0, 0⟩) :
    InPart (slab n (partitionDir n) (partitionSize (coord (partitionDir n) n) T) k) v ↔
      InGrid n v ∧ coord (partitionDir n) v / partitionSize (coord (partitionDir n) n) T = k := by
  have hs := size_pos (coord (partitionDir n) n) T
  have hk' := (lt_ceil_iff (a := coord (partitionDir n) n) (i := k) hs).2 hk
  obtain ⟨h1, h2, h3⟩ := hn
  simp only at h1 h2 h3
  generalize partitionSize (coord (partitionDir n) n) T = size at *
  have hdiv : ∀ a : Nat, a / size = k ↔ size * k ≤ a ∧ a < size * (k + 1) := by
    intro a
    rw [Nat.div_eq_iff hs, Nat.mul_comm k size, Nat.mul_add]
    omega
  rw [hdiv]
  have hm : size * (k + 1) = size * k + size := by ring
  rcases partitionDir_cases n with h | h | h <;> rw [h] at hk' ⊢ <;>
    simp only [slab, InPart, InGrid, coord, V3.set, V3.get] at hk' ⊢ <;>
    constructor <;> intro H <;> omega

theorem slab_valid {n : V3 Nat} {T : Nat} (k : Nat) (hk : k < slabs n T) (hn : InGrid n ⟨0, 0, 0⟩) :
    ValidPart n (slab n (partitionDir n) (partitionSize (coord (partitionDir n) n) T) k) := by
  have hs := size_pos (coord (partitionDir n) n) T
  have hk' := (lt_ceil_iff (a := coord (partitionDir n) n) (i := k) hs).2 hk
  obtain ⟨h1, h2, h3⟩ := hn
  simp only at h1 h2 h3
  generalize partitionSize (coord (partitionDir n) n) T = size at *
  have hm : size * (k + 1) = size * k + size := by ring
  rcases partitionDir_cases n with h | h | h <;> rw [h] at hk' ⊢ <;>
    simp only [slab, ValidPart, coord, V3.set, V3.get] at hk' ⊢ <;> omega

theorem slab_cover {n : V3 Nat} {T : Nat} (v : V3 Nat) (hv : InGrid n v) :
    coord (partitionDir n) v / partitionSize (coord (partitionDir n) n) T < slabs n T := by
  have hs := size_pos (coord (partitionDir n) n) T
  refine (lt_ceil_iff hs).1 (lt_of_le_of_lt (Nat.mul_div_le _ _) ?_)
  obtain ⟨h1, h2, h3⟩ := hv
  rcases partitionDir_cases n with h | h | h <;> rw [h] <;> simp only [coord, V3.get] <;> assumption

theorem grid_zero {n v : V3 Nat} (h : InGrid n v) : InGrid n ⟨0, 0, 0⟩ := by
  obtain ⟨h1, h2, h3⟩ := h
  exact ⟨by simp only; omega, by simp only; omega, by simp only; omega⟩

theorem fillAll_spec {G : Geo} {n : V3 Nat} (fuel : Nat) (hf : numElements n ≤ fuel) (ps : List Partition)
    (hp : ∀ p ∈ ps, ValidPart n p) (k : Nat) :
    ∃ rs, fillAll G n fuel k ps = some rs ∧ rs.length = ps.length ∧
      ∀ i p, ps[i]? = some p → ∃ r, rs[i]? = some r ∧ PSpec G n p (k + i) r := by
  induction ps generalizing k with
  | nil => exact ⟨[], rfl, rfl, by simp⟩
  | cons p ps ih =>
    obtain ⟨r, e1, h1⟩ := fillPartition_spec (G := G) (hp p (by simp)) fuel k hf
    obtain ⟨rs, e2, hl, h2⟩ := ih (fun q hq => hp q (List.mem_cons_of_mem _ hq)) (k + 1)
    refine ⟨r :: rs, by simp only [fillAll, e1, e2], by simp [hl], ?_⟩
    intro i q hq
    cases i with
    | zero =>
      simp at hq
      subst hq
      exact ⟨r, rfl, h1⟩
    | succ i =>
      obtain ⟨r', e, h⟩ := h2 i q (by simpa using hq)
      exact ⟨r', by simpa using e, by rwa [show k + (i + 1) = k + 1 + i by omega]⟩

/-- Facts about all groups of all partitions. -/
structure GSpec (G : Geo) (n : V3 Nat) (parts : List Partition) (gs : List Group) : Prop where
  nd : (allCells gs).Nodup
  ce : ∀ x, x ∈ allCells gs ↔ x < numElements n ∧ G.trim x = false
  ok : ∀ g ∈ gs, ∃ p, parts[g.part]? = some p ∧ (∀ i ∈ g.cells, inP n p i) ∧ GroupOK G n p g.part g
  both : ∀ g ∈ gs, ∀ p, parts[g.part]? = some p → ∀ i ∈ g.cells, ∀ d j, next n p d i = (j, .middle) →
    G.trim j = false → G.trimP j d = false → G.trimP i (reverse d) = false → j ∈ g.cells

theorem GSpec.perm {G n parts gs gs'} (h : GSpec G n parts gs) (hp : gs'.Perm gs) : GSpec G n parts gs' := by
  have hc : (allCells gs').Perm (allCells gs) := hp.flatMap_right _
  exact ⟨hc.nodup_iff.2 h.nd, fun x => hc.mem_iff.trans (h.ce x), fun g hg => h.ok g (hp.mem_iff.1 hg),
    fun g hg => h.both g (hp.mem_iff.1 hg)⟩

theorem grid_iff {n : V3 Nat} {i : Nat} (hn : InGrid n ⟨0, 0, 0⟩) : InGrid n (toMat n i) ↔ i < numElements n := by
  constructor
  · intro h
    have := toVec_lt n _ h
    rwa [toVec_toMat] at this
  · exact toMat_inGrid n i

theorem allCells_flatMap (rs : List PS) : allCells (rs.flatMap (·.groups)) = rs.flatMap (fun r => allCells r.groups) := by
  unfold allCells
  rw [List.flatMap_assoc]

theorem gspec_all {G : Geo} {n : V3 Nat} {T : Nat} (hT : 0 < T) (hn : InGrid n ⟨0, 0, 0⟩) (fuel : Nat)
    (hf : numElements n ≤ fuel) :
    ∃ rs, fillAll G n fuel 0 (partitions n T) = some rs ∧ GSpec G n (partitions n T) (rs.flatMap (·.groups)) ∧
      ∀ x, x ∈ rs.flatMap (·.trimmed) ↔ x < numElements n ∧ G.trim x = true := by
  have hv : ∀ p ∈ partitions n T, ValidPart n p := by
    intro p hp
    obtain ⟨k, hk⟩ := List.mem_iff_getElem?.1 hp
    obtain ⟨h1, rfl⟩ := (partitions_get n hT k p).1 hk
    exact slab_valid k h1 hn
  obtain ⟨rs, e, hl, hs⟩ := fillAll_spec (G := G) fuel hf (partitions n T) hv 0
  -- every result belongs to a slab
  have hr : ∀ (i : Nat) r, rs[i]? = some r → ∃ p, (partitions n T)[i]? = some p ∧ PSpec G n p i r := by
    intro i r hir
    have hi : i < (partitions n T).length := by
      rw [← hl]; exact (List.getElem?_eq_some_iff.1 hir).1
    obtain ⟨r', e', h'⟩ := hs i _ (List.getElem?_eq_getElem hi)
    rw [hir] at e'
    obtain rfl := Option.some.inj e'
    exact ⟨_, List.getElem?_eq_getElem hi, by simpa using h'⟩
  have hcov : ∀ x, x < numElements n → ∃ i r p, rs[i]? = some r ∧ (partitions n T)[i]? = some p ∧ PSpec G n p i r ∧ inP n p x := by
    intro x hx
    have hg := toMat_inGrid n x hx
    have hk := slab_cover (T := T) _ hg
    have hpk := (partitions_get n hT _ _).2 ⟨hk, rfl⟩
    obtain ⟨r, e', h'⟩ := hs _ _ hpk
    exact ⟨_, r, _, e', hpk, by simpa using h', (inPart_slab _ hk _ hn).2 ⟨hg, rfl⟩⟩
  have huniq : ∀ (i j : Nat) p q x, (partitions n T)[i]? = some p → (partitions n T)[j]? = some q → inP n p x → inP n q x → i = j := by
    intro i j p q x hi hj h1 h2
    obtain ⟨hi1, rfl⟩ := (partitions_get n hT i p).1 hi
    obtain ⟨hj1, rfl⟩ := (partitions_get n hT j q).1 hj
    exact ((inPart_slab _ hi1 _ hn).1 h1).2.symm.trans ((inPart_slab _ hj1 _ hn).1 h2).2
  have hlt : ∀ (i : Nat) p x, (partitions n T)[i]? = some p → inP n p x → x < numElements n := fun i p x hi h =>
    inP_lt (hv p (List.mem_of_getElem? hi)) h
  refine ⟨rs, e, ⟨?_, ?_, ?_, ?_⟩, ?_⟩
  · rw [allCells_flatMap, List.nodup_flatMap]
    constructor
    · intro r hr'
      obtain ⟨i, hi⟩ := List.mem_iff_getElem?.1 hr'
      obtain ⟨p, _, h⟩ := hr i r hi
      exact h.cnd
    · rw [List.pairwise_iff_getElem]
      intro i j hi hj hij x h1 h2
      obtain ⟨p, hp, h⟩ := hr i _ (List.getElem?_eq_getElem hi)
      obtain ⟨q, hq, h'⟩ := hr j _ (List.getElem?_eq_getElem hj)
      have := huniq i j p q x hp hq ((h.ce x).1 h1).1 ((h'.ce x).1 h2).1
      omega
  · intro x
    rw [allCells_flatMap, List.mem_flatMap]
    constructor
    · rintro ⟨r, hr', hx⟩
      obtain ⟨i, hi⟩ := List.mem_iff_getElem?.1 hr'
      obtain ⟨p, hp, h⟩ := hr i r hi
      exact ⟨hlt i p x hp ((h.ce x).1 hx).1, ((h.ce x).1 hx).2⟩
    · rintro ⟨h1, h2⟩
      obtain ⟨i, r, p, hi, _, h, hx⟩ := hcov x h1
      exact ⟨r, List.mem_of_getElem? hi, (h.ce x).2 ⟨hx, h2⟩⟩
  · intro g hg
    obtain ⟨r, hr', hx⟩ := List.mem_flatMap.1 hg
    obtain ⟨i, hi⟩ := List.mem_iff_getElem?.1 hr'
    obtain ⟨p, hp, h⟩ := hr i r hi
    have hok := h.ok g hx
    have := hok.part
    refine ⟨p, by rw [this]; exact hp, ?_, by rw [this]; exact hok⟩
    intro c hc
    exact ((h.ce c).1 (List.mem_flatMap.2 ⟨g, hx, hc⟩)).1
  · intro g hg q hq
    obtain ⟨r, hr', hx⟩ := List.mem_flatMap.1 hg
    obtain ⟨i, hi⟩ := List.mem_iff_getElem?.1 hr'
    obtain ⟨p, hp, h⟩ := hr i r hi
    rw [(h.ok g hx).part, hp] at hq
    obtain rfl := Option.some.inj hq
    exact h.both g hx
  · intro x
    rw [List.mem_flatMap]
    constructor
    · rintro ⟨r, hr', hx⟩
      obtain ⟨i, hi⟩ := List.mem_iff_getElem?.1 hr'
      obtain ⟨p, hp, h⟩ := hr i r hi
      exact ⟨hlt i p x hp ((h.tr x).1 hx).1, ((h.tr x).1 hx).2⟩
    · rintro ⟨h1, h2⟩
      obtain ⟨i, r, p, hi, _, h, hx⟩ := hcov x h1
      exact ⟨r, List.mem_of_getElem? hi, (h.tr x).2 ⟨hx, h2⟩⟩

end QuESo.Flood
