import Verif.Proofs.MomentFitting
import Verif.Proofs.Mapping
import Verif.Spec.Moments
import Mathlib.Tactic.FieldSimp
import Mathlib.Tactic.Ring
import Mathlib.Algebra.BigOperators.Intervals

/-! # Moments: auxiliary lemmas -/
namespace QuESo.Trimmed
open Mapping Spec
variable {K : Type _} [Field K] [LinearOrder K]

theorem orders_length (o : V3 Nat) : (orders o).length = numFun o := by
  simp [orders, numFun, List.length_flatMap, List.map_const', List.sum_replicate, Nat.mul_assoc]

theorem mem_orders {o i : V3 Nat} : i ∈ orders o ↔ i.x ≤ o.x ∧ i.y ≤ o.y ∧ i.z ≤ o.z := by
  simp only [orders, List.mem_flatMap, List.mem_range, List.mem_map]
  constructor
  · rintro ⟨a, ha, b, hb, c, hc, rfl⟩
    exact ⟨by show a ≤ _; omega, by show b ≤ _; omega, by show c ≤ _; omega⟩
  · rintro ⟨h1, h2, h3⟩
    exact ⟨i.x, by omega, i.y, by omega, i.z, by omega, rfl⟩

theorem sum_range_list {M : Type _} [AddCommMonoid M] (n : Nat) (g : Nat → M) :
    ((List.range n).map g).sum = ∑ k ∈ Finset.range n, g k := by
  induction n with
  | zero => simp
  | succ n ih => rw [List.range_succ, List.map_append, List.sum_append, ih, Finset.sum_range_succ]; simp

theorem sum_flatMap {α M : Type _} [AddCommMonoid M] {β : Type _} (l : List α) (f : α → List β) (g : β → M) :
    ((l.flatMap f).map g).sum = (l.map fun a => ((f a).map g).sum).sum := by
  induction l with
  | nil => simp
  | cons a l ih => simp [List.flatMap_cons, ih]

theorem sum_orders {M : Type _} [AddCommMonoid M] (o : V3 Nat) (g : V3 Nat → M) :
    ((orders o).map g).sum = ∑ a ∈ Finset.range (o.x + 1), ∑ b ∈ Finset.range (o.y + 1),
      ∑ c ∈ Finset.range (o.z + 1), g ⟨a, b, c⟩ := by
  rw [orders, sum_flatMap, sum_range_list]
  refine Finset.sum_congr rfl fun a _ => ?_
  rw [sum_flatMap, sum_range_list]
  refine Finset.sum_congr rfl fun b _ => ?_
  rw [List.map_map, sum_range_list]
  rfl

theorem foldl_rows {α : Type _} (L : List (V3 Nat)) (f : V3 Nat → α → K) (pts : List α) (g : V3 Nat → K) :
    pts.foldl (fun acc q => List.zipWith (· + ·) acc (L.map fun i => f i q)) (L.map g) =
      L.map fun i => g i + (pts.map (f i)).sum := by
  induction pts generalizing g with
  | nil => simp
  | cons q pts ih =>
    rw [List.foldl_cons]
    have : List.zipWith (· + ·) (L.map g) (L.map fun i => f i q) = L.map fun i => g i + f i q := by
      rw [List.zipWith_map]
      induction L with
      | nil => rfl
      | cons a L ihL => simp
    rw [this, ih]
    simp [add_assoc]

theorem replicate_eq (o : V3 Nat) : List.replicate (numFun o) (0 : K) = (orders o).map fun _ => 0 := by
  rw [List.map_const', orders_length]

theorem constantTerms_eq (cell : Box K) (o : V3 Nat) (bnd : List (BndPoint K)) :
    constantTerms cell o bnd = (orders o).map (boundaryMoment cell bnd) := by
  rw [constantTerms, replicate_eq, foldl_rows]
  refine List.map_congr_left fun i _ => ?_
  rw [zero_add, boundaryMoment]
  congr 1
  refine List.map_congr_left fun q _ => ?_
  simp only [flux, fluxField]
  ring

theorem constantTermsVolume_eq (cell : Box K) (o : V3 Nat) (pts : List (VolPoint K)) :
    constantTermsVolume cell o pts =
      (orders o).map fun i => (pts.map fun q => q.weight * legendre cell i q.pos).sum := by
  rw [constantTermsVolume, replicate_eq, foldl_rows]
  refine List.map_congr_left fun i _ => ?_
  rw [zero_add]
  congr 1
  refine List.map_congr_left fun q _ => ?_
  simp only [shape, legendre]
  ring

variable [IsStrictOrderedRing K]

theorem ref_coord {lo up lo' up' x : K} (h : lo < up) (h' : lo' < up') :
    (2 * ((x - lo) * (|up' - lo'| / |up - lo|) + lo') - lo' - up') / (up' - lo') =
      (2 * x - lo - up) / (up - lo) := by
  have h1 : up - lo ≠ 0 := (sub_pos.2 h).ne'
  have h2 : up' - lo' ≠ 0 := (sub_pos.2 h').ne'
  rw [abs_of_pos (sub_pos.2 h), abs_of_pos (sub_pos.2 h')]
  field_simp
  ring

theorem fx_map {lo up lo' up' x : K} (h : lo < up) (h' : lo' < up') (n : Nat) :
    Poly.fx ((x - lo) * (|up' - lo'| / |up - lo|) + lo') n lo' up' = Poly.fx x n lo up := by
  have := ref_coord (x := x) h h'
  match n with
  | 0 => rfl
  | 1 | 2 | 3 | 4 | 5 | 6 | 7 | 8 => simp only [Poly.fx, this]
  | n + 9 => rfl

/-- The polynomials take the same values at corresponding points of the parametric and the physical cell. -/
theorem shape_map {cell : Bounds K} (hg : ProperBox cell.global) (hp : ProperBox cell.parametric) (i : V3 Nat)
    (p : V3 K) : legendre cell.global i (toGlobal p cell) = shape cell.parametric i p := by
  simp only [legendre, shape, toGlobal, computeScale]
  rw [fx_map hp.1 hg.1, fx_map hp.2.1 hg.2.1, fx_map hp.2.2 hg.2.2]

theorem range_getD {α : Type _} {M : Type _} [AddCommMonoid M] (L : List α) (G : Nat → M) (g : α → M)
    (h : ∀ k (hk : k < L.length), G k = g L[k]) : ((List.range L.length).map G).sum = (L.map g).sum := by
  congr 1
  apply List.ext_getElem
  · simp
  · intro k h1 h2
    simp at h1
    simp [h k h1]

theorem zipWith_sum (pts : List (VolPoint K)) (ws : List K) (φ : VolPoint K → K) :
    (List.zipWith (fun w q => w * φ q) ws pts).sum =
      (List.zipWith (fun (q : VolPoint K) w => w * φ q) pts ws).sum := by
  rw [List.zipWith_comm]

theorem momentFitting_error_at {nnls : List (List K) → List K → List K × K}
    {norm : List K → K} {cell : Bounds K} (hg : ProperBox cell.global) (hp : ProperBox cell.parametric)
    {o : V3 Nat} (m : V3 Nat → K) (pts : List (VolPoint K)) :
    ((List.range ((orders o).map m).length).map fun k =>
      ((List.zipWith (fun w (col : List K) => w * col.getD k 0)
        (nnls (pts.map fun q => (orders o).map fun i => shape cell.parametric i q.pos) ((orders o).map m)).1
        (pts.map fun q => (orders o).map fun i => shape cell.parametric i q.pos)).sum - ((orders o).map m).getD k 0) ^ 2).sum =
      momentError cell o (momentFitting nnls norm cell o ((orders o).map m) pts).1 m := by
  unfold momentFitting
  dsimp only
  set A := pts.map fun q => (orders o).map fun i => shape cell.parametric i q.pos with hA
  rw [List.length_map]
  set ws := (nnls A ((orders o).map m)).1
  rw [range_getD (orders o) _ (fun i => (ruleMoment cell i
    (List.zipWith (fun (q : VolPoint K) w => ⟨q.pos, w / detJ cell⟩) pts ws) - m i) ^ 2), sum_orders]
  · rfl
  intro k hk
  have hJ : detJ cell ≠ 0 := (detJ_pos hg hp).ne'
  have e1 : ((orders o).map m).getD k 0 = m (orders o)[k] := by simp [List.getD, hk]
  rw [e1]
  congr 2
  rw [hA, List.zipWith_map_right]
  unfold ruleMoment
  rw [List.map_zipWith, List.zipWith_comm]
  congr 1
  have hfun : (fun (q : VolPoint K) (w : K) => w * ((orders o).map fun i => shape cell.parametric i q.pos).getD k 0) =
      fun (q : VolPoint K) w => (ipToGlobal ⟨q.pos, w / detJ cell⟩ cell).weight *
        legendre cell.global (orders o)[k] (ipToGlobal ⟨q.pos, w / detJ cell⟩ cell).pos := by
    funext q w
    have e2 : ((orders o).map fun i => shape cell.parametric i q.pos).getD k 0 =
        shape cell.parametric (orders o)[k] q.pos := by simp [List.getD, hk]
    rw [e2]
    simp only [ipToGlobal]
    rw [shape_map hg hp, div_mul_cancel₀ _ hJ]
  rw [hfun]

/-- The residual of the solver and the moments of the fitted rule. -/
theorem momentFitting_error {nnls : List (List K) → List K → List K × K} (hn : ReportsResidual nnls)
    {norm : List K → K} {cell : Bounds K} (hg : ProperBox cell.global) (hp : ProperBox cell.parametric)
    {o : V3 Nat} (m : V3 Nat → K) (hz : norm ((orders o).map m) ≠ 0) (pts : List (VolPoint K)) :
    ((momentFitting nnls norm cell o ((orders o).map m) pts).2 * norm ((orders o).map m)) ^ 2 =
      momentError cell o (momentFitting nnls norm cell o ((orders o).map m) pts).1 m := by
  rw [← momentFitting_error_at hg hp m pts, ← (hn _ _).2.2]
  unfold momentFitting
  dsimp only
  rw [div_mul_cancel₀ _ hz]

end QuESo.Trimmed
