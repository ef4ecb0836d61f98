import Verif.Proofs.BRepClip
import Verif.Proofs.BRepTrim
import Verif.Props.GeometryQuery

/-!
# C57, C58, C59: clipping a surface by a cell and choosing the trimmed domain
-/
namespace QuESo.BRep
open QuESo.AABB QuESo.AABBTree QuESo.GQ QuESo.Spec QuESo.IO QuESo.Clip
variable {K : Type} [Field K] [LinearOrder K] [IsStrictOrderedRing K]

theorem clip_pipeline {zt tol depth : K} (hz : 0 ≤ zt) (ht : 0 < tol) (hd : tol ≤ depth) (hzt : 10 * zt ≤ depth) {m : Mesh K} (hm : m.check = true)
    (lo up : V3 K) (ids : List Nat) (hnd : ids.Nodup)
    (hids : ∀ i, i ∈ ids ↔ ∃ c, m.corners i = some c ∧ ∃ q, InTriangle c.x c.y c.z q ∧ InBoxTol lo up (-tol) q) :
    ∃ out ts, clipLoop zt m lo up ids emptyClipped = .ok out ∧ finish out = .ok out ∧ out.mesh.check = true ∧
      out.mesh.visit = some ts ∧ IsClipped zt depth m lo up ts := by
  obtain ⟨out, h1, h2, h3⟩ := clipLoop_spec hz hm lo up ids emptyClipped []
    (fun i hi => by obtain ⟨c, hc, -⟩ := (hids i).1 hi; exact corners_lt hc) (by rfl) (by rfl)
  refine ⟨out, _, h1, ?_, h2, h3, by simpa using isClipped_of_ids hz ht hd hzt hnd hids⟩
  unfold finish
  rw [h2]
  split <;> rfl

/-- C57: in exact arithmetic clipping a valid surface by a box that is not tiny never fails and gives a valid mesh with
only, and up to the tolerance all, of the part of the surface in the box.  `snap` is a tenth of the snap tolerance
relative to the longest side.  Missing: with rounding the clipping of a triangle may fail, see
`C115_capacity_false_of_code`. -/
theorem C57_clip_partial (node : Node K) (maxd zt snaptol snap : K) (hz : 0 ≤ zt) (hs : 0 < snaptol) (m : Mesh K) (hm : m.check = true)
    (hne : m.triangles ≠ []) (hn : m.triangles.length ≤ 2 ^ 30) (closed : Bool) (lo up : V3 K)
    (hsnap : snap = 1 / 10 * max (max (up.x - lo.x) (max (up.y - lo.y) (up.z - lo.z)) * snaptol) snaptol) (hzt : 10 * zt ≤ snap)
    (hx : 2 * snap ≤ up.x - lo.x) (hy : 2 * snap ≤ up.y - lo.y) (hz' : 2 * snap ≤ up.z - lo.z) :
    ∃ g out ts, Query.new node maxd m closed = .ok g ∧ clipTriangleMesh zt snaptol g lo up = .ok out ∧ out.mesh.check = true ∧
      out.mesh.visit = some ts ∧ IsClipped zt snap m lo up ts := by
  have h0 : 0 < snap := by
    have : snaptol ≤ max (max (up.x - lo.x) (max (up.y - lo.y) (up.z - lo.z)) * snaptol) snaptol := le_max_right _ _
    rw [hsnap]; linarith
  obtain ⟨g, ids, h1, h2, h3, h4⟩ := C55_triangle_ids node maxd m hm hne hn closed lo up snap h0.le hx hy hz'
  obtain ⟨out, ts, g1, g2, g3, g4, g5⟩ := clip_pipeline hz h0 le_rfl hzt hm lo up ids h3 h4
  refine ⟨g, out, ts, h1, ?_, g3, g4, g5⟩
  obtain ⟨cs, t, k1, -⟩ := new_spec node maxd hm hn closed
  rw [k1] at h1
  cases h1
  simp only [clipTriangleMesh, relativeSnapTolerance, ← hsnap, h2, g1, g2]

/-- C57 for the variant with unique ownership of faces, which clips by the box moved by 30 zero tolerances. -/
theorem C57_clip_unique_partial (node : Node K) (maxd zt : K) (hz : 0 < zt) (m : Mesh K) (hm : m.check = true)
    (hne : m.triangles ≠ []) (hn : m.triangles.length ≤ 2 ^ 30) (closed : Bool) (lo up lower upper : V3 K)
    (hl : lower = ⟨lo.x + 30 * zt, lo.y + 30 * zt, lo.z + 30 * zt⟩) (hu : upper = ⟨up.x + 30 * zt, up.y + 30 * zt, up.z + 30 * zt⟩)
    (hx : 2 * zt ≤ up.x - lo.x) (hy : 2 * zt ≤ up.y - lo.y) (hz' : 2 * zt ≤ up.z - lo.z) :
    ∃ g out ts, Query.new node maxd m closed = .ok g ∧ clipTriangleMeshUnique zt g lo up = .ok out ∧ out.mesh.check = true ∧
      out.mesh.visit = some ts ∧ IsClipped zt (10 * zt) m lower upper ts := by
  have hx2 : 2 * zt ≤ upper.x - lower.x := by rw [hl, hu]; simp only; linarith
  have hy2 : 2 * zt ≤ upper.y - lower.y := by rw [hl, hu]; simp only; linarith
  have hz2 : 2 * zt ≤ upper.z - lower.z := by rw [hl, hu]; simp only; linarith
  obtain ⟨g, ids, h1, h2, h3, h4⟩ := C55_triangle_ids node maxd m hm hne hn closed lower upper zt hz.le hx2 hy2 hz2
  obtain ⟨out, ts, g1, g2, g3, g4, g5⟩ := clip_pipeline hz.le hz (by linarith : zt ≤ 10 * zt) le_rfl hm lower upper ids h3 h4
  obtain ⟨cs, t, e1, -⟩ := new_spec node maxd hm hn closed
  refine ⟨g, out, ts, h1, ?_, g3, g4, g5⟩
  rw [e1] at h1
  cases h1
  have el : lo + (⟨30 * zt, 30 * zt, 30 * zt⟩ : V3 K) = lower := by rw [hl]; rfl
  have eu : up + (⟨30 * zt, 30 * zt, 30 * zt⟩ : V3 K) = upper := by rw [hu]; rfl
  simp only [clipTriangleMeshUnique, el, eu, one_mul, h2, g1, g2]

/-- C58: the choice of a trimmed domain ends after at most 28 attempts.  Each of them was really made, in a box that
contains the cell and exceeds it by at most 1300 times `snap`, with alternating orientation, and the result is the one
that `Outcome` describes: the last attempt if it is accurate, and otherwise the most accurate one. -/
theorem C58_choice {D : Type} (trial : V3 K → V3 K → Bool → Except Fault (Option (Trial K D))) (htrial : ∀ l u s, ∃ x, trial l u s = .ok x)
    (snaptol snap : K) (hs : 0 ≤ snaptol) (rl ru : Nat → V3 K) (hrl : ∀ n, Rand (rl n)) (hru : ∀ n, Rand (ru n)) (lo up : V3 K)
    (hsnap : snap = 10 * max (max (up.x - lo.x) (max (up.y - lo.y) (up.z - lo.z)) * snaptol) snaptol)
    (minRatio : K) (neglect : Bool) :
    ∃ res tr, getTrimmedDomain trial snaptol rl ru lo up minRatio neglect = .ok res ∧ tr.length ≤ 28 ∧
      (∀ a ∈ tr, trial a.lower a.upper a.switch = .ok a.found) ∧ (∀ k, ∀ h : k < tr.length, tr[k].switch = decide (k % 2 = 1)) ∧
      (∀ a ∈ tr, Grown lo up a.lower a.upper (1300 * snap)) ∧
      Outcome ((up.x - lo.x) * (up.y - lo.y) * (up.z - lo.z)) minRatio neglect tr res := by
  have h0 : 0 ≤ snap := by rw [hsnap]; exact mul_nonneg (by norm_num) (hs.trans (le_max_right _ _))
  obtain ⟨res, tr, h1, -, h3⟩ := trimLoop_spec trial htrial ((up.x - lo.x) * (up.y - lo.y) * (up.z - lo.z)) minRatio snap h0 rl ru hrl hru neglect
    lo up 29 1 ⟨lo, up, none, 1 / 2, false⟩ []
    ⟨rfl, by omega, by simp, by simp, by simp, by simp, by
        simp only [Spec.Grown, Nat.cast_one, sub_self, mul_zero, sub_zero, add_zero, le_refl, and_self], by simp, Or.inl ⟨rfl, rfl, by simp⟩⟩
    le_rfl (by simp)
  refine ⟨res, tr, ?_, h3⟩
  simp only [getTrimmedDomain, relativeSnapTolerance, ← hsnap]
  exact h1

/-- C58: an error of an attempt is passed on: it never becomes an answer. -/
theorem C58_error_passed_on {D : Type} (trial : V3 K → V3 K → Bool → Except Fault (Option (Trial K D))) (e : Fault) (snaptol : K)
    (rl ru : Nat → V3 K) (lo up : V3 K) (minRatio : K) (neglect : Bool) (h : trial lo up false = .error e) :
    getTrimmedDomain trial snaptol rl ru lo up minRatio neglect = .error e := by
  simp only [getTrimmedDomain]
  rw [trimLoop]
  simp [h]

/-- A case with two attempts: the first one is inaccurate, the second one (with the other orientation, in the same box)
is accurate and has enough volume. -/
example : getTrimmedDomain (K := ℚ) (D := Nat) (fun _ _ s => .ok (some (if s then ⟨1 / 2, 1 / 10 ^ 6, 7⟩ else ⟨1 / 2, 1 / 10, 8⟩))) (1 / 10 ^ 12)
    (fun _ => ⟨1, 50, 100⟩) (fun _ => ⟨2, 3, 4⟩) ⟨0, 0, 0⟩ ⟨1, 1, 1⟩ (1 / 1000) false = .ok (some 7) := by
  have h : ((getTrimmedDomain (K := ℚ) (D := Nat) (fun _ _ s => .ok (some (if s then ⟨1 / 2, 1 / 10 ^ 6, 7⟩ else ⟨1 / 2, 1 / 10, 8⟩))) (1 / 10 ^ 12)
    (fun _ => ⟨1, 50, 100⟩) (fun _ => ⟨2, 3, 4⟩) ⟨0, 0, 0⟩ ⟨1, 1, 1⟩ (1 / 1000) false).toOption) = some (some 7) := by decide +kernel
  revert h
  cases getTrimmedDomain (K := ℚ) (D := Nat) _ _ _ _ _ _ _ _ <;> simp [Except.toOption]

/-- The random numbers of that case are admissible. -/
example : Rand (⟨1, 50, 100⟩ : V3 ℚ) ∧ Rand (⟨2, 3, 4⟩ : V3 ℚ) := by norm_num [Rand]

/-- All attempts inaccurate: the best one (error 1/10) is returned, or none if bad domains are to be neglected. -/
example : ((getTrimmedDomain (K := ℚ) (D := Nat) (fun l _ s => .ok (some (if s then ⟨1 / 2, 1 / 5 + l.x, 7⟩ else ⟨1 / 2, 1 / 10 - l.x, 8⟩))) (1 / 10 ^ 12)
      (fun _ => ⟨1, 50, 100⟩) (fun _ => ⟨2, 3, 4⟩) ⟨0, 0, 0⟩ ⟨1, 1, 1⟩ (1 / 1000) false).toOption) = some (some 8) ∧
    ((getTrimmedDomain (K := ℚ) (D := Nat) (fun l _ s => .ok (some (if s then ⟨1 / 2, 1 / 5 + l.x, 7⟩ else ⟨1 / 2, 1 / 10 - l.x, 8⟩))) (1 / 10 ^ 12)
      (fun _ => ⟨1, 50, 100⟩) (fun _ => ⟨2, 3, 4⟩) ⟨0, 0, 0⟩ ⟨1, 1, 1⟩ (1 / 1000) true).toOption) = some none := by
  decide +kernel

theorem boundStep_fold (f : V3 K → K) (g : Box K → K) (hg : ∀ b v, g (boundStep b v) = min (f v) (g b)) : ∀ (l : List (V3 K)) (b : Box K),
    g (l.foldl boundStep b) ≤ g b ∧ (∀ v ∈ l, g (l.foldl boundStep b) ≤ f v) ∧ (g (l.foldl boundStep b) = g b ∨ ∃ v ∈ l, g (l.foldl boundStep b) = f v)
  | [], b => by simp
  | w :: l, b => by
    obtain ⟨h1, h2, h3⟩ := boundStep_fold f g hg l (boundStep b w)
    rw [hg] at h1 h3
    rw [List.foldl_cons]
    refine ⟨h1.trans (min_le_right _ _), fun v hv => ?_, ?_⟩
    · rcases List.mem_cons.1 hv with rfl | hv
      · exact h1.trans (min_le_left _ _)
      · exact h2 v hv
    · rcases h3 with h3 | ⟨v, hv, h3⟩
      · rcases min_choice (f w) (g b) with h | h
        · exact Or.inr ⟨w, by simp, h3.trans h⟩
        · exact Or.inl (h3.trans h)
      · exact Or.inr ⟨v, by simp [hv], h3⟩

/-- C59: the bounding box of the trimmed domain contains all vertices of its boundary, and each of its six bounds is
attained by a vertex: no smaller box contains them.  (The coordinates are `double`, so none exceeds `maxd`.) -/
theorem C59_bounding_box (maxd : K) (m : Mesh K) (hne : m.vertices ≠ [])
    (hd : ∀ v ∈ m.vertices, (-maxd ≤ v.x ∧ v.x ≤ maxd) ∧ (-maxd ≤ v.y ∧ v.y ≤ maxd) ∧ -maxd ≤ v.z ∧ v.z ≤ maxd) :
    let b := boundingBoxOfTrimmedDomain maxd m
    (∀ v ∈ m.vertices, InBox b v) ∧
    ((∃ v ∈ m.vertices, v.x = b.lower.x) ∧ ∃ v ∈ m.vertices, v.x = b.upper.x) ∧
    ((∃ v ∈ m.vertices, v.y = b.lower.y) ∧ ∃ v ∈ m.vertices, v.y = b.upper.y) ∧
    ((∃ v ∈ m.vertices, v.z = b.lower.z) ∧ ∃ v ∈ m.vertices, v.z = b.upper.z) := by
  intro b
  have key : ∀ (f : V3 K → K) (g : Box K → K), (∀ b v, g (boundStep b v) = min (f v) (g b)) →
      (∀ v ∈ m.vertices, f v ≤ g ⟨⟨maxd, maxd, maxd⟩, ⟨-maxd, -maxd, -maxd⟩⟩) → (∀ v ∈ m.vertices, g b ≤ f v) ∧ ∃ v ∈ m.vertices, f v = g b := by
    intro f g hg hb
    obtain ⟨h1, h2, h3⟩ := boundStep_fold f g hg m.vertices ⟨⟨maxd, maxd, maxd⟩, ⟨-maxd, -maxd, -maxd⟩⟩
    refine ⟨h2, ?_⟩
    rcases h3 with h3 | ⟨v, hv, h3⟩
    · obtain ⟨v, hv⟩ := List.exists_mem_of_ne_nil _ hne
      exact ⟨v, hv, le_antisymm ((hb v hv).trans h3.ge) (h2 v hv)⟩
    · exact ⟨v, hv, h3.symm⟩
  have lo : ∀ a b : K, (if a < b then a else b) = min a b := fun a b => by
    split
    · rename_i h; exact (min_eq_left h.le).symm
    · rename_i h; exact (min_eq_right (not_lt.1 h)).symm
  have upp : ∀ a b : K, -(if a > b then a else b) = min (-a) (-b) := fun a b => by
    split
    · rename_i h; exact (min_eq_left (neg_le_neg (le_of_lt h))).symm
    · rename_i h; exact (min_eq_right (neg_le_neg (not_lt.1 h))).symm
  obtain ⟨x1, x2⟩ := key V3.x (fun b => b.lower.x) (fun b v => lo _ _) (fun v hv => (hd v hv).1.2)
  obtain ⟨y1, y2⟩ := key V3.y (fun b => b.lower.y) (fun b v => lo _ _) (fun v hv => (hd v hv).2.1.2)
  obtain ⟨z1, z2⟩ := key V3.z (fun b => b.lower.z) (fun b v => lo _ _) (fun v hv => (hd v hv).2.2.2)
  obtain ⟨x3, vx, hvx, x4⟩ := key (fun v => -v.x) (fun b => -b.upper.x) (fun b v => upp _ _) (fun v hv => neg_le_neg (hd v hv).1.1)
  obtain ⟨y3, vy, hvy, y4⟩ := key (fun v => -v.y) (fun b => -b.upper.y) (fun b v => upp _ _) (fun v hv => neg_le_neg (hd v hv).2.1.1)
  obtain ⟨z3, vz, hvz, z4⟩ := key (fun v => -v.z) (fun b => -b.upper.z) (fun b v => upp _ _) (fun v hv => neg_le_neg (hd v hv).2.2.1)
  exact ⟨fun v hv => ⟨⟨x1 v hv, neg_le_neg_iff.1 (x3 v hv)⟩, ⟨y1 v hv, neg_le_neg_iff.1 (y3 v hv)⟩, z1 v hv, neg_le_neg_iff.1 (z3 v hv)⟩,
    ⟨x2, vx, hvx, neg_inj.1 x4⟩, ⟨y2, vy, hvy, neg_inj.1 y4⟩, z2, vz, hvz, neg_inj.1 z4⟩

/-- The normalised direction from the point to the centre of the triangle. -/
def toCentre (norm : V3 K → K) (p : V3 K) (c : V3 (V3 K)) : V3 K :=
  let d : V3 K := ⟨1 / 3 * (c.x.x + c.y.x + c.z.x) - p.x, 1 / 3 * (c.x.y + c.y.y + c.z.y) - p.y, 1 / 3 * (c.x.z + c.y.z + c.z.z) - p.z⟩
  ⟨d.x / norm d, d.y / norm d, d.z / norm d⟩

/-- The ray from `p` towards the centre of triangle `i` gives the reliable answer `x`: the triangle has a significant area,
is not parallel to the ray and the ray query succeeds. -/
def Reliable (zt maxd snap : K) (norm : V3 K → K) (junk : Nat → Nat → V3 K) (m : Mesh K) (g : Query K) (p : V3 K) (i : Nat) (x : Bool) : Prop :=
  ∃ c, m.corners i = some c ∧ Sizable zt c ∧
    100 * snap ≤ |(toCentre norm p c).x * (area2 c).x + (toCentre norm p c).y * (area2 c).y + (toCentre norm p c).z * (area2 c).z| ∧
    g.isInside zt maxd (junk i) ⟨p, toCentre norm p c, ⟨false, false, false⟩⟩ = .ok (x, true)

theorem usable_iff (zt snap : K) (norm : V3 K → K) (p : V3 K) (c : V3 (V3 K)) : usable zt snap norm p c = true ↔ Sizable zt c ∧
    100 * snap ≤ |(toCentre norm p c).x * (area2 c).x + (toCentre norm p c).y * (area2 c).y + (toCentre norm p c).z * (area2 c).z| := by
  have hd : (rayTo norm p c).direction = toCentre norm p c := rfl
  have he : V3.dot (c.y - c.x) (V3.cross (rayTo norm p c).direction (c.z - c.x)) =
      -((toCentre norm p c).x * (area2 c).x + (toCentre norm p c).y * (area2 c).y + (toCentre norm p c).z * (area2 c).z) := by
    rw [hd]
    simp only [V3.dot, V3.cross, area2, triangleArea2, V3.sub_x, V3.sub_y, V3.sub_z]
    ring
  simp only [usable, Ray.isParallel, he, abs_neg, Bool.and_eq_true, sizable_iff, Bool.not_eq_true', ite_eq_right_iff, Bool.true_eq_false,
    imp_false, not_lt]
  exact and_comm

theorem insideTrimmedLoop_spec (zt maxd snap : K) (norm : V3 K → K) (junk : Nat → Nat → V3 K) (g : Query K) (p : V3 K)
    (hm : g.mesh.check = true) (hok : ∀ junk r, ∃ x, g.isInside zt maxd junk r = .ok x) : ∀ (n id : Nat), n + id = g.mesh.triangles.length →
    ∃ x ok, insideTrimmedLoop zt maxd snap norm junk g p n id = .ok (x, ok) ∧
      ((ok = true ∧ ∃ i, id ≤ i ∧ Reliable zt maxd snap norm junk g.mesh g p i x ∧ ∀ j, id ≤ j → j < i → ∀ y, ¬ Reliable zt maxd snap norm junk g.mesh g p j y) ∨
        (ok = false ∧ ∀ j, id ≤ j → ∀ y, ¬ Reliable zt maxd snap norm junk g.mesh g p j y))
  | 0, id, h => ⟨false, false, rfl, Or.inr ⟨rfl, fun j hj y ⟨c, hc, _⟩ => by have := corners_lt hc; omega⟩⟩
  | n + 1, id, h => by
    obtain ⟨c, hc⟩ := corners_some hm (i := id) (by omega)
    obtain ⟨x, ok, ih, ih2⟩ := insideTrimmedLoop_spec zt maxd snap norm junk g p hm hok n (id + 1) (by omega)
    have skip : (∀ y, ¬ Reliable zt maxd snap norm junk g.mesh g p id y) →
      ((ok = true ∧ ∃ i, id ≤ i ∧ Reliable zt maxd snap norm junk g.mesh g p i x ∧ ∀ j, id ≤ j → j < i → ∀ y, ¬ Reliable zt maxd snap norm junk g.mesh g p j y) ∨
        (ok = false ∧ ∀ j, id ≤ j → ∀ y, ¬ Reliable zt maxd snap norm junk g.mesh g p j y)) := by
      intro hn
      rcases ih2 with ⟨h1, i, h2, h3, h4⟩ | ⟨h1, h2⟩
      · refine Or.inl ⟨h1, i, by omega, h3, fun j hj hji y => ?_⟩
        rcases Nat.eq_or_lt_of_le hj with rfl | hj
        · exact hn y
        · exact h4 j hj hji y
      · refine Or.inr ⟨h1, fun j hj y => ?_⟩
        rcases Nat.eq_or_lt_of_le hj with rfl | hj
        · exact hn y
        · exact h2 j hj y
    rw [insideTrimmedLoop, cornersAt_ok hc]
    simp only
    split
    · rename_i hu
      rw [usable_iff] at hu
      obtain ⟨⟨y, ok'⟩, hy⟩ := hok (junk id) (rayTo norm p c)
      rw [hy]
      simp only
      cases ok' with
      | true => exact ⟨y, true, rfl, Or.inl ⟨rfl, id, le_rfl, ⟨c, hc, hu.1, hu.2, hy⟩, fun j h1 h2 => by omega⟩⟩
      | false =>
        refine ⟨x, ok, ih, skip ?_⟩
        rintro z ⟨c', hc', -, -, h5⟩
        rw [hc] at hc'
        cases hc'
        have h6 : (Except.ok (z, true) : Except Fault _) = .ok (y, false) := h5.symm.trans hy
        simp at h6
    · rename_i hu
      rw [usable_iff] at hu
      refine ⟨x, ok, ih, skip ?_⟩
      rintro z ⟨c', hc', h3, h4, -⟩
      rw [hc] at hc'
      cases hc'
      exact hu ⟨h3, h4⟩

/-- C59: the point test of a trimmed domain always answers.  It gives the answer of the first triangle of the boundary
towards which there is a reliable ray; without such a triangle it gives the answer of the test with the whole geometry. -/
theorem C59_inside (node : Node K) (zt maxd snap : K) (norm : V3 K → K) (junk : Nat → Nat → V3 K) (m : Mesh K) (hm : m.check = true)
    (hne : m.triangles ≠ []) (hn : m.triangles.length ≤ 2 ^ 30) (fallback : V3 K → Except Fault Bool) (p : V3 K) (f : Bool)
    (hf : fallback p = .ok f) :
    ∃ g b, Query.new node maxd m false = .ok g ∧ isInsideTrimmedDomain zt maxd snap norm junk g fallback p = .ok b ∧
      ((∃ i, Reliable zt maxd snap norm junk m g p i b ∧ ∀ j < i, ∀ y, ¬ Reliable zt maxd snap norm junk m g p j y) ∨
        (b = f ∧ ∀ j y, ¬ Reliable zt maxd snap norm junk m g p j y)) := by
  obtain ⟨g, h1, h2⟩ := isInside_ok node zt maxd m hm hne hn false
  obtain ⟨cs, t, k1, -⟩ := new_spec node maxd hm hn false
  have hg : g.mesh = m := by rw [k1] at h1; cases h1; rfl
  obtain ⟨x, ok, g1, g2⟩ := insideTrimmedLoop_spec zt maxd snap norm junk g p (by rw [hg]; exact hm) h2 g.mesh.triangles.length 0 (by omega)
  rw [hg] at g2
  have hpos : ¬ g.mesh.triangles.length = 0 := by rw [hg]; exact fun h => hne (List.length_eq_zero_iff.1 h)
  rcases g2 with ⟨rfl, i, -, h4, h5⟩ | ⟨rfl, h4⟩
  · refine ⟨g, x, h1, ?_, Or.inl ⟨i, h4, fun j => h5 j (Nat.zero_le _)⟩⟩
    simp only [isInsideTrimmedDomain, hpos, if_false, g1, if_true]
  · refine ⟨g, f, h1, ?_, Or.inr ⟨rfl, fun j => h4 j (Nat.zero_le _)⟩⟩
    simp only [isInsideTrimmedDomain, hpos, if_false, g1, Bool.false_eq_true, hf]

/-- C59: a cell whose boundary part is empty is full: every point is inside. -/
theorem C59_inside_empty (zt maxd snap : K) (norm : V3 K → K) (junk : Nat → Nat → V3 K) (g : Query K) (he : g.mesh.triangles = [])
    (fallback : V3 K → Except Fault Bool) (p : V3 K) : isInsideTrimmedDomain zt maxd snap norm junk g fallback p = .ok true := by
  simp [isInsideTrimmedDomain, he]

/-- C59: if the triangle with number 0 is a good target and the ray towards its centre is well placed with respect to
all triangles, the answer is the orientation of the nearest triangle on this ray: inside if it is seen from its back. -/
theorem C59_orientation (node : Node K) (zt maxd snap : K) (hzt : 0 < zt) (norm : V3 K → K) (junk : Nat → Nat → V3 K) (m : Mesh K)
    (hm : m.check = true) (hne : m.triangles ≠ []) (hn : m.triangles.length ≤ 2 ^ 30) (fallback : V3 K → Except Fault Bool) (p d : V3 K)
    (c0 : V3 (V3 K)) (hc0 : m.corners 0 = some c0) (hd : d = toCentre norm p c0) (hs : Sizable zt c0)
    (hp : 100 * snap ≤ |d.x * (area2 c0).x + d.y * (area2 c0).y + d.z * (area2 c0).z|)
    (hc : ∀ i c, m.corners i = some c → Clear zt p d c ∨ ¬ NotParallel zt d c ∧ ¬ ClearHit zt p d c)
    (hh : ClearHit zt p d c0)
    (hmax : ∀ i c t u v, m.corners i = some c → PlaneHit p d c t u v → zt ≤ t → zt ≤ u → zt ≤ v → u + v ≤ 1 - zt → t < maxd) :
    ∃ g b, Query.new node maxd m false = .ok g ∧ isInsideTrimmedDomain zt maxd snap norm junk g fallback p = .ok b ∧
      ∃ i c t u v, m.corners i = some c ∧ PlaneHit p d c t u v ∧ zt ≤ t ∧ zt ≤ u ∧ zt ≤ v ∧ u + v ≤ 1 - zt ∧
          (b = true ↔ BackFacing d c) ∧
          ∀ j c' t' u' v', m.corners j = some c' → PlaneHit p d c' t' u' v' → zt ≤ t' → zt ≤ u' → zt ≤ v' →
            u' + v' ≤ 1 - zt → t ≤ t' := by
  obtain ⟨g, b, h1, h2, h3⟩ := C56_open_nearest_partial node zt maxd hzt (junk 0) m hm hne hn ⟨p, d, ⟨false, false, false⟩⟩ hc hmax
  obtain ⟨cs, t, k1, -⟩ := new_spec node maxd hm hn false
  have hg : g.mesh = m := by rw [k1] at h1; cases h1; rfl
  refine ⟨g, b, h1, ?_, ?_⟩
  · have hpos : m.triangles.length ≠ 0 := fun h => hne (List.length_eq_zero_iff.1 h)
    obtain ⟨k, hk⟩ := Nat.exists_eq_succ_of_ne_zero hpos
    have hu : usable zt snap norm p c0 = true := (usable_iff zt snap norm p c0).2 ⟨hs, hd ▸ hp⟩
    have h2' : g.isInside zt maxd (junk 0) (rayTo norm p c0) = .ok (b, true) := by
      rw [show rayTo norm p c0 = ⟨p, d, ⟨false, false, false⟩⟩ by rw [hd]; rfl]
      exact h2
    simp only [isInsideTrimmedDomain, hg, hk, Nat.succ_ne_zero, if_false]
    simp only [Nat.succ_eq_add_one]
    rw [insideTrimmedLoop, cornersAt_ok (hg ▸ hc0)]
    simp only [hu, if_true, h2']
  · rcases h3 with ⟨-, h3⟩ | h3
    · exact absurd hh (h3 0 c0 hc0)
    · exact h3

/-- C59: the state of a box in a trimmed domain is "trimmed" exactly when a triangle of the boundary has a point in the
box shrunk by the tolerance; otherwise the point test for the centre decides. -/
theorem C59_state (node : Node K) (maxd : K) (m : Mesh K) (hm : m.check = true) (hne : m.triangles ≠ [])
    (hn : m.triangles.length ≤ 2 ^ 30) (inside : V3 K → Except Fault Bool) (lo up : V3 K) (tol snap : K) (ht : 0 ≤ tol)
    (hs : snap = max (max (up.x - lo.x) (max (up.y - lo.y) (up.z - lo.z)) * tol) tol) (hx : 2 * snap ≤ up.x - lo.x)
    (hy : 2 * snap ≤ up.y - lo.y) (hz : 2 * snap ≤ up.z - lo.z) (f : Bool)
    (hf : inside ⟨(lo.x + up.x) / 2, (lo.y + up.y) / 2, (lo.z + up.z) / 2⟩ = .ok f) :
    ∃ g s, Query.new node maxd m false = .ok g ∧ trimmedState inside g lo up tol = .ok s ∧
      (s = .trimmed ↔ ∃ i c, m.corners i = some c ∧ ∃ q, InTriangle c.x c.y c.z q ∧ InBoxTol lo up (-snap) q) ∧
      (s ≠ .trimmed → s = if f then .inside else .outside) := by
  obtain ⟨g, b, h1, h2, h3⟩ := C55_do_intersect node maxd m hm hne hn false lo up tol snap ht hs hx hy hz
  have hc : V3.scale (1 / 2) (lo + up) = (⟨(lo.x + up.x) / 2, (lo.y + up.y) / 2, (lo.z + up.z) / 2⟩ : V3 K) := by
    simp only [V3.scale, V3.add_x, V3.add_y, V3.add_z, V3.mk.injEq]
    refine ⟨?_, ?_, ?_⟩ <;> ring
  cases b with
  | true => exact ⟨g, .trimmed, h1, by simp only [trimmedState, h2], by simpa using h3, fun h => absurd rfl h⟩
  | false =>
    refine ⟨g, if f then .inside else .outside, h1, by simp only [trimmedState, h2, hc, hf], ?_, fun _ => rfl⟩
    rw [← h3]
    cases f <;> simp

/-- The answers of the first ten reliable rays, in the order of the triangles. -/
def IsVotes (zt maxd snap : K) (norm : V3 K → K) (junk : Nat → Nat → V3 K) (m : Mesh K) (g : Query K) (p : V3 K) (vs : List (Nat × Bool)) : Prop :=
  (vs.map Prod.fst).Pairwise (· < ·) ∧ vs.length ≤ 10 ∧ (∀ v ∈ vs, Reliable zt maxd snap norm junk m g p v.1 v.2) ∧
    ∀ i x, Reliable zt maxd snap norm junk m g p i x → (i, x) ∈ vs ∨ vs.length = 10 ∧ ∀ v ∈ vs, v.1 < i

omit [IsStrictOrderedRing K] in
theorem reliable_unique {zt maxd snap : K} {norm : V3 K → K} {junk : Nat → Nat → V3 K} {m : Mesh K} {g : Query K} {p : V3 K} {i : Nat} {x y : Bool}
    (h : Reliable zt maxd snap norm junk m g p i x) (h' : Reliable zt maxd snap norm junk m g p i y) : x = y := by
  obtain ⟨c, h1, -, -, h2⟩ := h
  obtain ⟨c', h3, -, -, h4⟩ := h'
  rw [h1] at h3
  cases h3
  rw [h2] at h4
  simpa using h4

theorem sideLoop_spec (zt maxd snap : K) (norm : V3 K → K) (junk : Nat → Nat → V3 K) (g : Query K) (p : V3 K)
    (hm : g.mesh.check = true) (hok : ∀ junk r, ∃ x, g.isInside zt maxd junk r = .ok x) : ∀ (n id : Nat) (pre : List (Nat × Bool)) (ins : Int),
    n + id = g.mesh.triangles.length → pre.length ≤ 10 →
    ((pre.map Prod.fst).Pairwise (· < ·) ∧ (∀ v ∈ pre, v.1 < id ∧ Reliable zt maxd snap norm junk g.mesh g p v.1 v.2) ∧
      ∀ i < id, ∀ x, Reliable zt maxd snap norm junk g.mesh g p i x → (i, x) ∈ pre) →
    ins = ((pre.map Prod.snd).count true : Int) - (pre.map Prod.snd).count false →
    ∃ vs, sideLoop zt maxd snap norm junk g p n id pre.length ins = .ok (decide ((vs.map Prod.snd).count false < (vs.map Prod.snd).count true)) ∧
      IsVotes zt maxd snap norm junk g.mesh g p vs
  | 0, id, pre, ins, h, h10, hpre, hins => by
    refine ⟨pre, ?_, hpre.1, h10, fun v hv => (hpre.2.1 v hv).2, fun i x hi => Or.inl (hpre.2.2 i ?_ x hi)⟩
    · rw [sideLoop]
      congr 2
      exact propext ⟨fun h => by omega, fun h => by omega⟩
    · obtain ⟨c, hc, -⟩ := hi
      have := corners_lt hc
      omega
  | n + 1, id, pre, ins, h, h10, hpre, hins => by
    obtain ⟨c, hc⟩ := corners_some hm (i := id) (by omega)
    rw [sideLoop]
    split
    · rename_i hlt
      rw [cornersAt_ok hc]
      simp only
      have skip : (∀ y, ¬ Reliable zt maxd snap norm junk g.mesh g p id y) → ∃ vs, sideLoop zt maxd snap norm junk g p n (id + 1) pre.length ins =
            .ok (decide ((vs.map Prod.snd).count false < (vs.map Prod.snd).count true)) ∧
          IsVotes zt maxd snap norm junk g.mesh g p vs := fun hn =>
        sideLoop_spec zt maxd snap norm junk g p hm hok n (id + 1) pre ins (by omega) h10
          ⟨hpre.1, fun v hv => ⟨by have := (hpre.2.1 v hv).1; omega, (hpre.2.1 v hv).2⟩, fun i hi x hx => by
            rcases Nat.eq_or_lt_of_le (Nat.le_of_lt_succ hi) with rfl | hi
            · exact absurd hx (hn x)
            · exact hpre.2.2 i hi x hx⟩ hins
      split
      · rename_i hu
        rw [usable_iff] at hu
        obtain ⟨⟨y, ok'⟩, hy⟩ := hok (junk id) (rayTo norm p c)
        rw [hy]
        simp only
        cases ok' with
        | true =>
          have hr : Reliable zt maxd snap norm junk g.mesh g p id y := ⟨c, hc, hu.1, hu.2, hy⟩
          have := sideLoop_spec zt maxd snap norm junk g p hm hok n (id + 1) (pre ++ [(id, y)]) (if y then ins + 1 else ins - 1) (by omega)
            (by simp; omega) ⟨by
              rw [List.map_append, List.pairwise_append]
              refine ⟨hpre.1, by simp, fun a ha b hb => ?_⟩
              obtain ⟨v, hv, rfl⟩ := List.mem_map.1 ha
              simp only [List.map_cons, List.map_nil, List.mem_singleton] at hb
              exact hb ▸ (hpre.2.1 v hv).1, fun v hv => by
              rcases List.mem_append.1 hv with hv | hv
              · exact ⟨by have := (hpre.2.1 v hv).1; omega, (hpre.2.1 v hv).2⟩
              · rw [List.mem_singleton.1 hv]; exact ⟨by simp, hr⟩, fun i hi x hx => by
              rcases Nat.eq_or_lt_of_le (Nat.le_of_lt_succ hi) with rfl | hi
              · rw [reliable_unique hx hr]; simp
              · exact List.mem_append_left _ (hpre.2.2 i hi x hx)⟩ (by
              rw [List.map_append, List.count_append, List.count_append, hins]
              cases y <;> simp <;> omega)
          rw [List.length_append, List.length_singleton] at this
          simpa using this
        | false =>
          simp only [Bool.false_eq_true, if_false]
          refine skip ?_
          rintro z ⟨c', hc', -, -, h5⟩
          rw [hc] at hc'
          cases hc'
          have h6 : (Except.ok (z, true) : Except Fault _) = .ok (y, false) := h5.symm.trans hy
          simp at h6
      · rename_i hu
        rw [usable_iff] at hu
        refine skip ?_
        rintro z ⟨c', hc', h3, h4, -⟩
        rw [hc] at hc'
        cases hc'
        exact hu ⟨h3, h4⟩
    · rename_i hlt
      refine ⟨pre, ?_, hpre.1, h10, fun v hv => (hpre.2.1 v hv).2, fun i x hi => ?_⟩
      · congr 2
        exact propext ⟨fun h => by omega, fun h => by omega⟩
      · by_cases hi' : i < id
        · exact Or.inl (hpre.2.2 i hi' x hi)
        · exact Or.inr ⟨by omega, fun v hv => by have := (hpre.2.1 v hv).1; omega⟩

/-- C59: the test on which side of the clipped surface a point lies never fails for a valid surface and a box that is not
tiny.  It is a vote of the first ten triangles of the clipped surface towards which there is a reliable ray; a tie counts
as "outside", and so does a box without surface. -/
theorem C59_bounded_side (node node' : Node K) (maxd zt snaptol snap : K) (hz : 0 ≤ zt) (hs : 0 < snaptol) (norm : V3 K → K)
    (junk : Nat → Nat → V3 K) (m : Mesh K) (hm : m.check = true)
    (hne : m.triangles ≠ []) (hn : m.triangles.length ≤ 2 ^ 30) (closed : Bool) (p lo up : V3 K)
    (hsnap : snap = max (max (up.x - lo.x) (max (up.y - lo.y) (up.z - lo.z)) * snaptol) snaptol) (hzt : 10 * zt ≤ 1 / 10 * snap)
    (hx : 2 * (1 / 10 * snap) ≤ up.x - lo.x) (hy : 2 * (1 / 10 * snap) ≤ up.y - lo.y) (hz' : 2 * (1 / 10 * snap) ≤ up.z - lo.z) :
    ∃ g out, Query.new node maxd m closed = .ok g ∧ clipTriangleMesh zt snaptol g lo up = .ok out ∧
      (out.mesh.triangles.length ≤ 2 ^ 30 → ∃ b, onBoundedSide zt snaptol maxd norm node' junk g p lo up = .ok b ∧
        ((out.mesh.triangles = [] ∧ b = false) ∨
          ∃ g' vs, Query.new node' maxd out.mesh false = .ok g' ∧ IsVotes zt maxd snap norm junk out.mesh g' p vs ∧
            (b = true ↔ (vs.map Prod.snd).count false < (vs.map Prod.snd).count true))) := by
  obtain ⟨g, out, ts, h1, h2, h3, h4, h5⟩ := C57_clip_partial node maxd zt snaptol (1 / 10 * snap) hz hs m hm hne hn closed lo up (by rw [hsnap]) hzt hx hy hz'
  refine ⟨g, out, h1, h2, fun ho => ?_⟩
  obtain ⟨cs, t, k1, -⟩ := new_spec node' maxd h3 ho false
  by_cases he : out.mesh.triangles = []
  · refine ⟨false, ?_, Or.inl ⟨he, rfl⟩⟩
    simp only [onBoundedSide, h2, k1, he, List.length_nil, if_true]
  · obtain ⟨g', e1, e2⟩ := isInside_ok node' zt maxd out.mesh h3 he ho false
    have hg : g'.mesh = out.mesh := by rw [k1] at e1; cases e1; rfl
    obtain ⟨vs, v1, v2⟩ := sideLoop_spec zt maxd snap norm junk g' p (by rw [hg]; exact h3) e2 g'.mesh.triangles.length 0 [] 0 rfl (by simp) (by simp) (by simp)
    rw [hg] at v1 v2
    refine ⟨_, ?_, Or.inr ⟨g', vs, e1, v2, decide_eq_true_iff⟩⟩
    have hpos : ¬ out.mesh.triangles.length = 0 := fun h => he (List.length_eq_zero_iff.1 h)
    simp only [onBoundedSide, h2, e1, hpos, if_false, relativeSnapTolerance, ← hsnap]
    exact v1

/-- The tolerances of the code meet the hypotheses of C57 and C59 for every box with sides of at least one millionth and a
longest side of at most one hundred thousand. -/
example (lo up : V3 ℚ) (snap : ℚ) (h1 : 1 / 10 ^ 6 ≤ up.x - lo.x) (h2 : 1 / 10 ^ 6 ≤ up.y - lo.y) (h3 : 1 / 10 ^ 6 ≤ up.z - lo.z)
    (hx : up.x - lo.x ≤ 10 ^ 5) (hy : up.y - lo.y ≤ 10 ^ 5) (hz : up.z - lo.z ≤ 10 ^ 5)
    (hsnap : snap = 1 / 10 * max (max (up.x - lo.x) (max (up.y - lo.y) (up.z - lo.z)) * (1 / 10 ^ 12)) (1 / 10 ^ 12)) :
    10 * (1 / 10 ^ 14) ≤ snap ∧ 2 * snap ≤ up.x - lo.x ∧ 2 * snap ≤ up.y - lo.y ∧ 2 * snap ≤ up.z - lo.z := by
  have a : (1 : ℚ) / 10 ^ 12 ≤ max (max (up.x - lo.x) (max (up.y - lo.y) (up.z - lo.z)) * (1 / 10 ^ 12)) (1 / 10 ^ 12) := le_max_right _ _
  have b : max (up.x - lo.x) (max (up.y - lo.y) (up.z - lo.z)) ≤ 10 ^ 5 := max_le hx (max_le hy hz)
  have c : max (max (up.x - lo.x) (max (up.y - lo.y) (up.z - lo.z)) * (1 / 10 ^ 12)) (1 / 10 ^ 12) ≤ 1 / 10 ^ 7 :=
    max_le (by linarith) (by norm_num)
  refine ⟨by linarith, by linarith, by linarith, by linarith⟩

/-- The tetrahedron clipped by a box around its corner: three triangles are cut.  The point test of the clipped part with
the ray to the first triangle: one point inside, one outside. -/
example : ((Query.new (K := ℚ) ⟨⟨⟨0, 0, 0⟩, ⟨0, 0, 0⟩⟩, 7, 7, 7, 7, 7, 7⟩ (10 ^ 300) tetra true).bind fun g =>
      (clipTriangleMesh (K := ℚ) (1 / 10 ^ 14) (1 / 10 ^ 12) g ⟨-1, -1, -1⟩ ⟨1, 1, 1⟩).bind fun out =>
      (Query.new (K := ℚ) ⟨⟨⟨0, 0, 0⟩, ⟨0, 0, 0⟩⟩, 7, 7, 7, 7, 7, 7⟩ (10 ^ 300) out.mesh false).bind fun g' =>
      (isInsideTrimmedDomain (K := ℚ) (1 / 10 ^ 14) (10 ^ 300) (2 / 10 ^ 12) (fun _ => 1) (fun _ _ => ⟨0, 0, 0⟩) g' (fun _ => .ok false)
        ⟨1 / 2, 1 / 3, 1 / 4⟩).bind fun a =>
      (isInsideTrimmedDomain (K := ℚ) (1 / 10 ^ 14) (10 ^ 300) (2 / 10 ^ 12) (fun _ => 1) (fun _ _ => ⟨0, 0, 0⟩) g' (fun _ => .ok false)
        ⟨-1 / 2, -1 / 3, -1 / 4⟩).map fun b => (out.mesh.triangles.length, a, b)).toOption = some (12, true, false) := by
  decide +kernel

end QuESo.BRep
