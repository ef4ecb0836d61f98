import Verif.Proofs.ClipperBox
import Verif.Proofs.ClipperMesh
import Verif.Proofs.FanCover
import Verif.Proofs.Hull

/-!
# Properties of clipping (C22-C25)

The number `zt` is the zero tolerance, the plane tolerance is `10 * zt`.
-/
namespace QuESo
open QuESo.Spec QuESo.Clip
variable {K : Type _} [Field K] [LinearOrder K] [IsStrictOrderedRing K]

/-- The polygon that `ClipTriangle` returns, if it returns one. -/
def Clip.result (zt : K) (p1 p2 p3 lo up : V3 K) : Option (List (Vtx K)) :=
  match clipTriangle zt p1 p2 p3 lo up with
  | .poly p => some p
  | _ => none

theorem Clip.result_some {zt : K} (hz : 0 ≤ zt) {p1 p2 p3 lo up : V3 K} {p : List (Vtx K)}
    (h : clipTriangle zt p1 p2 p3 lo up = .poly p) : p = final zt lo up p1 p2 p3 := by
  rw [clipTriangle_eq hz] at h
  split at h
  · simp at h
  · simpa using h.symm

/-- C22: in exact arithmetic clipping never fails, so the capacity of nine vertices is never exceeded in any of the
six steps; the result has no vertices or between three and nine.  Missing: the rounding of double precision, with which
the capacity is exceeded for some triangles, see `C115_capacity_false_of_code`. -/
theorem C22_capacity_partial (zt : K) (hz : 0 ≤ zt) (p1 p2 p3 lo up : V3 K) :
    clipTriangle zt p1 p2 p3 lo up ≠ .error ∧
    ∀ p, clipTriangle zt p1 p2 p3 lo up = .poly p → p.length = 0 ∨ (3 ≤ p.length ∧ p.length ≤ 9) := by
  constructor
  · rw [clipTriangle_eq hz]
    split <;> simp
  · intro p h
    rw [result_some hz h]
    exact (inv_final hz p1 p2 p3 lo up).len

/-- C22: adding the result to a mesh never fails either: "All vertices are set on plane" cannot happen. -/
theorem C22_triangulation_never_fails (zt : K) (hz : 0 ≤ zt) (p1 p2 p3 lo up : V3 K) (p : List (Vtx K))
    (h : clipTriangle zt p1 p2 p3 lo up = .poly p) (n : V3 K) (m : ClippedMesh K) : ∃ m', addToMesh p n m = some m' := by
  cases hm : addToMesh p n m with
  | some m' => exact ⟨m', rfl⟩
  | none =>
    exfalso
    obtain ⟨h3, k, hk, hall⟩ := (addToMesh_none p n m).1 hm
    rw [result_some hz h] at h3 hall
    obtain ⟨v, hv, hv'⟩ := (inv_final hz p1 p2 p3 lo up).unflagged k hk (by intro e; rw [e] at h3; simp at h3)
    rw [hall v hv] at hv'
    simp at hv'

/-- C23: every vertex of the result is a convex combination of the corners. -/
theorem C23_in_triangle (zt : K) (hz : 0 ≤ zt) (p1 p2 p3 lo up : V3 K) (p : List (Vtx K))
    (h : clipTriangle zt p1 p2 p3 lo up = .poly p) : ∀ v ∈ p, InTriangle p1 p2 p3 v.pt := by
  rw [result_some hz h]
  exact final_inTriangle hz p1 p2 p3 lo up

omit [Field K] [IsStrictOrderedRing K] in
theorem Clip.active_of_overlap {p1 p2 p3 lo up : V3 K} (h : BoundsOverlap p1 p2 p3 lo up) :
    ∀ k < 6, Active lo up (triMin p1 p2 p3) (triMax p1 p2 p3) k := by
  obtain ⟨⟨h1, h2⟩, ⟨h3, h4⟩, h5, h6⟩ := h
  intro k hk
  have : k = 0 ∨ k = 1 ∨ k = 2 ∨ k = 3 ∨ k = 4 ∨ k = 5 := by omega
  rcases this with rfl | rfl | rfl | rfl | rfl | rfl <;>
    simp [Active, triMin, triMax, V3.get, or_assoc] <;> assumption

/-- C23: the result lies in the box up to the tolerance, provided that no direction has all corners on or beyond
the same face.  The full property claims it for every triangle: see `C23_false_of_code`. -/
theorem C23_in_box_partial (zt : K) (hz : 0 ≤ zt) (p1 p2 p3 lo up : V3 K) (hov : BoundsOverlap p1 p2 p3 lo up)
    (p : List (Vtx K)) (h : clipTriangle zt p1 p2 p3 lo up = .poly p) : ∀ v ∈ p, InBoxTol lo up (10 * zt) v.pt := by
  rw [result_some hz h]
  intro v hv
  have ha := active_of_overlap hov
  have hd := fun k (hk : k < 6) => final_dist hz hk (ha k hk) v hv
  have h0 := hd 0 (by omega)
  have h1 := hd 1 (by omega)
  have h2 := hd 2 (by omega)
  have h3 := hd 3 (by omega)
  have h4 := hd 4 (by omega)
  have h5 := hd 5 (by omega)
  simp [Clip.dist, plane, V3.get] at h0 h1 h2 h3 h4 h5
  exact ⟨⟨by linarith, by linarith⟩, ⟨by linarith, by linarith⟩, ⟨by linarith, by linarith⟩⟩

/-- C23: no polygon is returned exactly if all three corners lie on the same face up to the tolerance. -/
theorem C23_null (zt : K) (hz : 0 ≤ zt) (p1 p2 p3 lo up : V3 K) :
    clipTriangle zt p1 p2 p3 lo up = .null ↔
      ∃ k, OnFace lo up (10 * zt) k p1 ∧ OnFace lo up (10 * zt) k p2 ∧ OnFace lo up (10 * zt) k p3 := by
  have key : ∀ k < 6, ∀ q : V3 K, classify q (plane lo up k) (10 * zt) = .on ↔ OnFace lo up (10 * zt) k q := by
    intro k hk q
    rw [classify_on]
    have : k = 0 ∨ k = 1 ∨ k = 2 ∨ k = 3 ∨ k = 4 ∨ k = 5 := by omega
    rcases this with rfl | rfl | rfl | rfl | rfl | rfl <;> simp only [OnFace, abs_le] <;>
      simp [Clip.dist, plane, V3.get] <;> constructor <;> intro h <;> constructor <;> linarith [h.1, h.2]
  rw [clipTriangle_eq hz]
  have hal : aligned zt p1 p2 p3 lo up = true ↔
      ∃ k, OnFace lo up (10 * zt) k p1 ∧ OnFace lo up (10 * zt) k p2 ∧ OnFace lo up (10 * zt) k p3 := by
    unfold aligned
    simp only [List.any_eq_true, List.mem_range, Bool.and_eq_true, decide_eq_true_eq]
    constructor
    · rintro ⟨k, hk, ⟨h1, h2⟩, h3⟩
      exact ⟨k, (key k hk _).1 h1, (key k hk _).1 h2, (key k hk _).1 h3⟩
    · rintro ⟨k, h1, h2, h3⟩
      have hk : k < 6 := by
        by_contra hn
        match k, hn with
        | k + 6, _ => exact h1
      exact ⟨k, hk, ⟨(key k hk _).2 h1, (key k hk _).2 h2⟩, (key k hk _).2 h3⟩
  rw [← hal]
  split <;> simp_all

/-- C23: a triangle that lies inside the box, farther than the tolerance from all faces, is returned unchanged and
no vertex is flagged. -/
theorem C23_inside_unchanged (zt : K) (hz : 0 ≤ zt) (p1 p2 p3 lo up : V3 K) (h1 : DeepInBox lo up (10 * zt) p1)
    (h2 : DeepInBox lo up (10 * zt) p2) (h3 : DeepInBox lo up (10 * zt) p3) :
    clipTriangle zt p1 p2 p3 lo up = .poly [⟨p1, fun _ => false⟩, ⟨p2, fun _ => false⟩, ⟨p3, fun _ => false⟩] := by
  have d1 := deep_dist h1
  have d2 := deep_dist h2
  have d3 := deep_dist h3
  rw [clipTriangle_eq hz, if_neg]
  · congr 1
    refine final_forall (P := fun l => l = [bare p1, bare p2, bare p3]) rfl ?_
    rintro k hk l rfl
    unfold stage
    split_ifs
    all_goals first
      | rfl
      | (refine Cyc.clip_all _ ?_
         intro b hb
         simp only [List.mem_cons, List.not_mem_nil, or_false] at hb
         rcases hb with rfl | rfl | rfl
         · simp [behind, bare, d1 k hk]
         · simp [behind, bare, d2 k hk]
         · simp [behind, bare, d3 k hk])
  · unfold aligned
    simp only [List.any_eq_true, List.mem_range, Bool.and_eq_true, decide_eq_true_eq, classify_on]
    rintro ⟨k, hk, ⟨⟨g, _⟩, _⟩, _⟩
    have := d1 k hk
    linarith

/-- C23: nothing is lost.  A point of the triangle that lies in the box, farther than the tolerance from all faces,
lies in the result: no half-space separates it from the vertices of the result. -/
theorem C23_nothing_lost (zt : K) (hz : 0 ≤ zt) (p1 p2 p3 lo up q : V3 K) (hq : InTriangle p1 p2 p3 q)
    (hd : DeepInBox lo up (10 * zt) q) :
    ∃ p, clipTriangle zt p1 p2 p3 lo up = .poly p ∧ InHull (p.map Vtx.pt) q := by
  refine ⟨final zt lo up p1 p2 p3, ?_, final_hull hz hq hd⟩
  rw [clipTriangle_eq hz, if_neg]
  unfold aligned
  simp only [List.any_eq_true, List.mem_range, Bool.and_eq_true, decide_eq_true_eq, classify_on]
  rintro ⟨k, hk, ⟨⟨g1, _⟩, ⟨g2, _⟩⟩, ⟨g3, _⟩⟩
  obtain ⟨u, v, w, hu, hv, hw, hs, hx, hy, hz'⟩ := hq
  have hdk := deep_dist hd k hk
  have e : Clip.dist (plane lo up k) q = u * Clip.dist (plane lo up k) p1 + v * Clip.dist (plane lo up k) p2 + w * Clip.dist (plane lo up k) p3 := by
    have hget : ∀ i, q.get i = u * p1.get i + v * p2.get i + w * p3.get i := by
      intro i
      match i with
      | 0 => exact hx
      | 1 => exact hy
      | _ + 2 => exact hz'
    unfold Clip.dist
    rw [hget]
    split
    · linear_combination -(plane lo up k).position * hs
    · linear_combination (plane lo up k).position * hs
  rw [e] at hdk
  have b1 := mul_le_mul_of_nonneg_left g1 hu
  have b2 := mul_le_mul_of_nonneg_left g2 hv
  have b3 := mul_le_mul_of_nonneg_left g3 hw
  have : u * -(10 * zt) + v * -(10 * zt) + w * -(10 * zt) = -(10 * zt) := by rw [← add_mul, ← add_mul, hs, one_mul]
  linarith

/-- C23: over the reals the point lies in the convex hull of the vertices of the result. -/
theorem C23_nothing_lost_real (zt : ℝ) (hz : 0 ≤ zt) (p1 p2 p3 lo up q : V3 ℝ) (hq : InTriangle p1 p2 p3 q)
    (hd : DeepInBox lo up (10 * zt) q) :
    ∃ p, clipTriangle zt p1 p2 p3 lo up = .poly p ∧
      (q.x, q.y, q.z) ∈ convexHull ℝ {v : ℝ × ℝ × ℝ | ∃ w ∈ p, (w.pt.x, w.pt.y, w.pt.z) = v} := by
  obtain ⟨p, h1, h2⟩ := C23_nothing_lost zt hz p1 p2 p3 lo up q hq hd
  refine ⟨p, h1, ?_⟩
  have := inHull_convexHull _ _ h2
  have e : {v | ∃ w ∈ p.map Vtx.pt, toVec w = v} = {v : ℝ × ℝ × ℝ | ∃ w ∈ p, (w.pt.x, w.pt.y, w.pt.z) = v} := by
    ext v
    simp [toVec]
  rw [e] at this
  exact this

/-- C23 is false of the code without the condition on the bounding boxes: the comment of `ClipTriangle` promises a
null pointer for a triangle outside the box, but it is returned unchanged. -/
theorem C23_false_of_code :
    clipTriangle (1 / 10 ^ 14 : ℚ) ⟨2, 0, 0⟩ ⟨3, 0, 1⟩ ⟨2, 1, 1⟩ ⟨-1, -1, -1⟩ ⟨1, 2, 2⟩ =
      .poly [⟨⟨2, 0, 0⟩, fun _ => false⟩, ⟨⟨3, 0, 1⟩, fun _ => false⟩, ⟨⟨2, 1, 1⟩, fun _ => false⟩] ∧
    ¬ InBoxTol (⟨-1, -1, -1⟩ : V3 ℚ) ⟨1, 2, 2⟩ (10 * (1 / 10 ^ 14)) ⟨2, 0, 0⟩ := by
  constructor
  · rw [clipTriangle_eq (by norm_num), if_neg (by decide +kernel)]
    congr 1
    refine final_forall (P := fun l => l = [bare ⟨2, 0, 0⟩, bare ⟨3, 0, 1⟩, bare ⟨2, 1, 1⟩]) rfl ?_
    rintro k hk l rfl
    have : k = 0 ∨ k = 1 ∨ k = 2 ∨ k = 3 ∨ k = 4 ∨ k = 5 := by omega
    rcases this with rfl | rfl | rfl | rfl | rfl | rfl
    · rw [stage_active (by unfold Active; decide +kernel)]
      refine Cyc.clip_all _ ?_
      intro b hb
      simp only [List.mem_cons, List.not_mem_nil, or_false] at hb
      rcases hb with rfl | rfl | rfl <;> decide +kernel
    · exact if_neg (by decide +kernel)
    all_goals
      rw [stage_active (by unfold Active; decide +kernel)]
      refine Cyc.clip_all _ ?_
      intro b hb
      simp only [List.mem_cons, List.not_mem_nil, or_false] at hb
      rcases hb with rfl | rfl | rfl <;> decide +kernel
  · simp only [InBoxTol]; norm_num

/-- C24: a flagged vertex lies on the face it is flagged for, up to the tolerance. -/
theorem C24_flags (zt : K) (hz : 0 ≤ zt) (p1 p2 p3 lo up : V3 K) (p : List (Vtx K))
    (h : clipTriangle zt p1 p2 p3 lo up = .poly p) :
    ∀ v ∈ p, ∀ k, v.on k = true → OnFace lo up (10 * zt) k v.pt := by
  rw [result_some hz h]
  intro v hv k hon
  have hi := inv_final hz p1 p2 p3 lo up
  have hk : k < 6 := by
    by_contra hn
    have := hi.fresh v hv k (by omega)
    rw [hon] at this
    simp at this
  obtain ⟨h1, h2⟩ := hi.truthful v hv k hon
  have : k = 0 ∨ k = 1 ∨ k = 2 ∨ k = 3 ∨ k = 4 ∨ k = 5 := by omega
  rcases this with rfl | rfl | rfl | rfl | rfl | rfl <;> simp [Clip.dist, plane, V3.get] at h1 h2 <;>
    simp only [OnFace, abs_le] <;> constructor <;> linarith

/-- C24: the vertices flagged for one face are never all vertices of the result. -/
theorem C24_not_all_flagged (zt : K) (hz : 0 ≤ zt) (p1 p2 p3 lo up : V3 K) (p : List (Vtx K))
    (h : clipTriangle zt p1 p2 p3 lo up = .poly p) (hne : p ≠ []) (k : Nat) : ∃ v ∈ p, v.on k = false := by
  have hi := inv_final hz p1 p2 p3 lo up
  rw [← result_some hz h] at hi
  by_cases hk : k < 6
  · exact hi.unflagged k hk hne
  · obtain ⟨v, hv⟩ := List.exists_mem_of_ne_nil p hne
    exact ⟨v, hv, hi.fresh v hv k (by omega)⟩

/-- C24: every vertex of the result that is not a corner of the triangle is flagged for some face. -/
theorem C24_new_vertices_flagged (zt : K) (hz : 0 ≤ zt) (p1 p2 p3 lo up : V3 K) (p : List (Vtx K))
    (h : clipTriangle zt p1 p2 p3 lo up = .poly p) :
    ∀ v ∈ p, (v.pt = p1 ∨ v.pt = p2 ∨ v.pt = p3) ∨ ∃ k, v.on k = true := by
  rw [result_some hz h]
  exact final_new_flagged p1 p2 p3 lo up

/-- C24: a triangle with a corner behind a plane, and one that is not, is cut into a polygon with exactly two vertices
flagged for that plane: the ends of the cut.  The plane of index `k` and position `c` bounds the half-space
`x ≥ c`, `x ≤ c`, `y ≥ c`, ... -/
theorem C24_cut_edge (zt : K) (hz : 0 ≤ zt) (p1 p2 p3 : V3 K) (k : Nat) (c : K) (q r : V3 K)
    (hq : q = p1 ∨ q = p2 ∨ q = p3) (hr : r = p1 ∨ r = p2 ∨ r = p3)
    (hqb : if k % 2 = 0 then q.get (k / 2) > c + 10 * zt else q.get (k / 2) < c - 10 * zt)
    (hrf : if k % 2 = 0 then r.get (k / 2) ≤ c + 10 * zt else r.get (k / 2) ≥ c - 10 * zt) :
    ∃ p, clipPlane zt ⟨k, c⟩ [bare p1, bare p2, bare p3] = some p ∧ (p.filter fun v => v.on k).length = 2 := by
  have hc : ConvexPoly [bare p1, bare p2, bare p3] := convexPoly_three _ _ _
  refine ⟨_, clipPlane_eq hz _ _ (by have := cut_length_le (zt := zt) ⟨k, c⟩ hc; simp at this; omega), ?_⟩
  have mem : ∀ s : V3 K, s = p1 ∨ s = p2 ∨ s = p3 → bare s ∈ [bare p1, bare p2, bare p3] := by
    intro s hs
    rcases hs with rfl | rfl | rfl <;> simp
  refine cut_two_flagged (zt := zt) (pl := ⟨k, c⟩) hc ?_ (mem q hq) (mem r hr) ?_ ?_
  · intro v hv
    simp only [List.mem_cons, List.not_mem_nil, or_false] at hv
    rcases hv with rfl | rfl | rfl <;> rfl
  · simp only [behind, bare, decide_eq_true_eq, Clip.dist]
    split at hqb <;> rename_i h2 <;> simp only [h2, if_true, if_false, decide_eq_true_eq] <;> linarith
  · simp only [behind, bare, decide_eq_false_iff_not, not_lt, Clip.dist]
    split at hrf <;> rename_i h2 <;> simp only [h2, if_true, if_false, decide_eq_false_iff_not, not_lt] <;> linarith

omit [LinearOrder K] [IsStrictOrderedRing K] in
/-- C25: adding a polygon to a valid mesh keeps it valid, keeps the old triangles and adds those of the
triangulation: one for three corners, otherwise one per edge around the mean. -/
theorem C25_triangles (p : List (Vtx K)) (n : V3 K) (m m' : ClippedMesh K) (hm : m.mesh.check = true)
    (h : addToMesh p n m = some m') :
    m'.mesh.check = true ∧ ∀ ts, m.mesh.visit = some ts → m'.mesh.visit = some (ts ++ triangulation (p.map Vtx.pt) n) := by
  by_cases hp : 3 ≤ p.length
  · have := addToMesh_added hm p hp n h
    rw [← fan_eq]
    exact ⟨this.check, this.visit⟩
  · rw [addToMesh_small p (by omega)] at h
    simp only [Option.some.injEq] at h
    subst h
    refine ⟨hm, fun ts hts => ?_⟩
    have : triangulation (p.map Vtx.pt) n = [] := by
      match p, hp with
      | [], _ => rfl
      | [_], _ => rfl
      | [_, _], _ => rfl
      | _ :: _ :: _ :: _, hp => exact absurd (by simp) hp
    rw [this, List.append_nil, hts]

omit [LinearOrder K] [IsStrictOrderedRing K] in
/-- C25: the area vectors of the triangles add up to the area vector of the polygon. -/
theorem C25_area (p : List (V3 K)) (hp : 3 ≤ p.length) (n : V3 K) :
    sumV ((triangulation p n).map fun t => triangleArea2 t.p1 t.p2 t.p3) = polygonArea2 p ∧
    (triangulation p n).length = (if p.length = 3 then 1 else p.length) ∧
    ∀ t ∈ triangulation p n, t.normal = n := by
  have e : p = (p.map (fun q => (⟨q, fun _ => false⟩ : Vtx K))).map Vtx.pt := by simp [Function.comp_def]
  have := fan_area (p.map (fun q => (⟨q, fun _ => false⟩ : Vtx K))) (by simpa using hp) n
  rw [fan_eq, ← e] at this
  refine ⟨this, ?_, ?_⟩
  · match p, hp with
    | [a, b, c], _ => rfl
    | a :: b :: c :: d :: l, _ => simp [triangulation, cyclicPairs]
  · match p, hp with
    | [a, b, c], _ => simp [triangulation]
    | a :: b :: c :: d :: l, _ =>
      intro t ht
      simp only [triangulation, List.mem_map] at ht
      obtain ⟨e, _, rfl⟩ := ht
      rfl

/-- C25: the triangles that are added for a clipped triangle do not overlap, have its orientation, and cover all of its points that
are inside the box by more than the plane tolerance. -/
theorem C25_partition (zt : K) (hz : 0 ≤ zt) (p1 p2 p3 lo up : V3 K) (p : List (Vtx K)) (h : clipTriangle zt p1 p2 p3 lo up = .poly p)
    (n : V3 K) :
    (∀ t ∈ triangulation (p.map Vtx.pt) n, ∃ k, 0 ≤ k ∧ triangleArea2 t.p1 t.p2 t.p3 =
      ⟨k * (triangleArea2 p1 p2 p3).x, k * (triangleArea2 p1 p2 p3).y, k * (triangleArea2 p1 p2 p3).z⟩) ∧
    ((triangulation (p.map Vtx.pt) n).Pairwise fun t t' => ¬ ∃ q, Inside t.p1 t.p2 t.p3 q ∧ Inside t'.p1 t'.p2 t'.p3 q) ∧
    ∀ q, InTriangle p1 p2 p3 q → DeepInBox lo up (10 * zt) q →
      ∃ t ∈ triangulation (p.map Vtx.pt) n, InTriangle t.p1 t.p2 t.p3 q := by
  rw [clipTriangle_eq hz] at h
  split_ifs at h
  cases h
  have hin := final_inTriangle hz p1 p2 p3 lo up
  have hin' : ∀ v ∈ (final zt lo up p1 p2 p3).map Vtx.pt, InTriangle p1 p2 p3 v := by
    simp only [List.mem_map]; rintro _ ⟨v, hv, rfl⟩; exact hin v hv
  have ht := turn_final hz p1 p2 p3 lo up
  have hi := inv_final hz p1 p2 p3 lo up
  refine ⟨triangulation_area hin' ht n, triangulation_disjoint hi.convex hin ht n, fun q hq hd => ?_⟩
  have hh := final_hull hz hq hd
  refine triangulation_cover ?_ hin' ht hq hh n
  rcases hi.len with h0 | h0
  · exfalso
    rw [List.length_eq_zero_iff.1 h0] at hh
    have := hh ⟨0, 0, 0⟩ (-1) (by simp)
    simp at this
    linarith
  · simpa using h0.1

/-- A clipped triangle with more than three corners, and a point of it. -/
example : (Clip.result (1 / 10 ^ 14 : ℚ) ⟨0, 0, 0⟩ ⟨4, 0, 0⟩ ⟨0, 4, 0⟩ ⟨-1, -1, -1⟩ ⟨3, 3, 1⟩).map List.length = some 5 ∧
    InTriangle (K := ℚ) ⟨0, 0, 0⟩ ⟨4, 0, 0⟩ ⟨0, 4, 0⟩ ⟨1, 1, 0⟩ ∧ DeepInBox ⟨-1, -1, -1⟩ ⟨3, 3, 1⟩ (10 * (1 / 10 ^ 14 : ℚ)) ⟨1, 1, 0⟩ := by
  refine ⟨by decide +kernel, ⟨1 / 2, 1 / 4, 1 / 4, ?_⟩, ?_⟩
  · norm_num
  · unfold DeepInBox; norm_num

omit [LinearOrder K] [IsStrictOrderedRing K] in
/-- C25: the edges recorded for a face: old ones are kept; each new one joins the two ends of an edge of the polygon that
are both flagged for the face, and it is an edge of the triangle it refers to; each such edge of the polygon is
recorded. -/
theorem C25_edges (p : List (Vtx K)) (hp : 3 ≤ p.length) (n : V3 K) (m m' : ClippedMesh K) (hm : m.mesh.check = true)
    (h : addToMesh p n m = some m') (k : Nat) (hk : k < 6) :
    ∃ new, m'.edges k = m.edges k ++ new ∧
      (∀ e ∈ new, ∃ a b, (a, b) ∈ cyclicPairs p ∧ a.on k = true ∧ b.on k = true ∧
        m'.mesh.vertices[e.1]? = some a.pt ∧ m'.mesh.vertices[e.2.1]? = some b.pt ∧
        ∃ t, m'.mesh.triangles[e.2.2]? = some t ∧ ((e.1, e.2.1) = (t.x, t.y) ∨ (e.1, e.2.1) = (t.y, t.z) ∨ (e.1, e.2.1) = (t.z, t.x))) ∧
      (∀ a b, (a, b) ∈ cyclicPairs p → a.on k = true → b.on k = true →
        ∃ e ∈ new, m'.mesh.vertices[e.1]? = some a.pt ∧ m'.mesh.vertices[e.2.1]? = some b.pt) := by
  obtain ⟨es, h1, h2, h3⟩ := (addToMesh_added hm p hp n h).old k
  refine ⟨es, h1, ?_, ?_⟩
  · intro e he
    obtain ⟨_, q, hq, g1, g2, g3, g4, t, g5, g6⟩ := h2 e he
    refine ⟨q.1, q.2, hq, g1, g2, g3, g4, t, g5, ?_⟩
    rcases g6 with ⟨a, b⟩ | ⟨a, b⟩ | ⟨a, b⟩
    · exact Or.inl (by rw [a, b])
    · exact Or.inr (Or.inl (by rw [a, b]))
    · exact Or.inr (Or.inr (by rw [a, b]))
  · intro a b hab ha hb
    obtain ⟨e, he, g⟩ := h3 (a, b) hab hk ha hb
    exact ⟨e, he, g.2.2.1, g.2.2.2.1⟩

/-! ## The hypotheses are met -/

/-- A triangle that is cut at two faces of the unit box. -/
example : BoundsOverlap (⟨1/2, 1/2, 1/2⟩ : V3 ℚ) ⟨2, 1/2, 1/2⟩ ⟨1/2, 2, 3/4⟩ ⟨0, 0, 0⟩ ⟨1, 1, 1⟩ := by
  simp only [BoundsOverlap]; norm_num

/-- It becomes a polygon of four vertices, flagged on the faces x and y where it is cut. -/
example : ((Clip.result (1 / 10 ^ 14 : ℚ) ⟨1/2, 1/2, 1/2⟩ ⟨2, 1/2, 1/2⟩ ⟨1/2, 2, 3/4⟩ ⟨0, 0, 0⟩ ⟨1, 1, 1⟩).map
    fun p => p.map fun v => ((v.pt.x, v.pt.y, v.pt.z), (List.range 6).filter v.on)) =
    some [((1/2, 1, 7/12), [3]), ((1/2, 1/2, 1/2), []), ((1, 1/2, 1/2), [1]), ((1, 1, 7/12), [1, 3])] := by decide +kernel

/-- A point of that triangle well inside the box. -/
example : InTriangle (⟨1/2, 1/2, 1/2⟩ : V3 ℚ) ⟨2, 1/2, 1/2⟩ ⟨1/2, 2, 3/4⟩ ⟨3/4, 3/4, 13/24⟩ ∧
    DeepInBox (⟨0, 0, 0⟩ : V3 ℚ) ⟨1, 1, 1⟩ (10 * (1 / 10 ^ 14)) ⟨3/4, 3/4, 13/24⟩ := by
  refine ⟨⟨2/3, 1/6, 1/6, by norm_num, by norm_num, by norm_num, by norm_num, by norm_num, by norm_num, by norm_num⟩, ?_⟩
  simp only [DeepInBox]; norm_num

/-- A mesh to which a polygon with four vertices is added. -/
example : ((addToMesh (K := ℚ) [⟨⟨0, 0, 0⟩, fun _ => false⟩, ⟨⟨1, 0, 0⟩, fun k => k == 1⟩, ⟨⟨1, 1, 0⟩, fun k => k == 1⟩, ⟨⟨0, 1, 0⟩, fun _ => false⟩]
    ⟨0, 0, 1⟩ ⟨Mesh.empty, fun _ => []⟩).map fun m => m.edges 1) = some [(3, 4, 1)] := by decide +kernel

end QuESo
