import Verif.Spec.Surface
import Verif.Proofs.PlaneDomain
import Verif.Props.Clipper

/-! # Proofs about the triangulation of a cut plane -/
namespace QuESo.Plane
open QuESo.AABBTree (Fault)
open QuESo.Spec
variable {K : Type} [Field K] [LinearOrder K] [IsStrictOrderedRing K]

theorem axes_cases {P : Params K} (h : P.Axes) :
    (P.switch = false ∧ P.d1 = 0 ∧ P.d2 = 1 ∧ P.d3 = 2) ∨ (P.switch = true ∧ P.d1 = 1 ∧ P.d2 = 0 ∧ P.d3 = 2) ∨
    (P.switch = false ∧ P.d1 = 2 ∧ P.d2 = 0 ∧ P.d3 = 1) ∨ (P.switch = true ∧ P.d1 = 0 ∧ P.d2 = 2 ∧ P.d3 = 1) ∨
    (P.switch = false ∧ P.d1 = 1 ∧ P.d2 = 2 ∧ P.d3 = 0) ∨ (P.switch = true ∧ P.d1 = 2 ∧ P.d2 = 1 ∧ P.d3 = 0) := by
  obtain ⟨plane, h⟩ := h
  unfold dirs at h
  cases hs : P.switch <;> rw [hs] at h <;> split at h <;> (try split at h) <;> (try split at h) <;> simp_all

/-- A point of the plane has the position of the plane. -/
theorem lift_d3 {P : Params K} (h : P.Axes) (p : P2 K) : (P.lift p).get P.d3 = P.face := by
  rcases axes_cases h with h | h | h | h | h | h <;> obtain ⟨_, h1, h2, h3⟩ := h <;>
    simp [Params.lift, Params.position, Params.face, h1, h2, h3, V3.get, V3.set]

theorem lift_d1 {P : Params K} (h : P.Axes) (p : P2 K) : (P.lift p).get P.d1 = p.x := by
  rcases axes_cases h with h | h | h | h | h | h <;> obtain ⟨_, h1, h2, h3⟩ := h <;>
    simp [Params.lift, h1, h2, h3, V3.get, V3.set]

theorem lift_d2 {P : Params K} (h : P.Axes) (p : P2 K) : (P.lift p).get P.d2 = p.y := by
  rcases axes_cases h with h | h | h | h | h | h <;> obtain ⟨_, h1, h2, h3⟩ := h <;>
    simp [Params.lift, h1, h2, h3, V3.get, V3.set]

/-- The area vector of a triangle of the plane in the order the code uses. -/
theorem triangle_area {P : Params K} (h : P.Axes) (a b c : P2 K) :
    (if P.upper ^^ P.switch then triangleArea2 (P.lift a) (P.lift b) (P.lift c)
      else triangleArea2 (P.lift b) (P.lift a) (P.lift c)) = V3.scale (area2 [a, b, c]) P.outward := by
  rcases axes_cases h with h | h | h | h | h | h <;> obtain ⟨h0, h1, h2, h3⟩ := h <;> cases hu : P.upper <;>
    simp [Params.lift, Params.outward, Params.normal, h0, h1, h2, h3, hu, V3.set, triangleArea2, V3.scale, area2, cyclicPairs] <;> ring

theorem quad_area {P : Params K} (h : P.Axes) (a b c d : P2 K) :
    polygonArea2 ((if P.upper ^^ P.switch then [a, b, c, d] else [a, d, c, b]).map P.lift) =
      V3.scale (area2 [a, b, c, d]) P.outward := by
  rcases axes_cases h with h | h | h | h | h | h <;> obtain ⟨h0, h1, h2, h3⟩ := h <;> cases hu : P.upper <;>
    simp [Params.lift, Params.outward, Params.normal, h0, h1, h2, h3, hu, V3.set, polygonArea2, sumV, V3.scale, area2, cyclicPairs] <;>
    (try constructor) <;> (try constructor) <;> ring

/-- The mean of four points. -/
def mean4 (a b c d : P2 K) : P2 K := ⟨(a.x + b.x + c.x + d.x) / 4, (a.y + b.y + c.y + d.y) / 4⟩

theorem mean_lift {P : Params K} (h : P.Axes) (a b c d : P2 K) :
    mean ([a, b, c, d].map P.lift) = P.lift (mean4 a b c d) := by
  rcases axes_cases h with h | h | h | h | h | h <;> obtain ⟨h0, h1, h2, h3⟩ := h <;>
    simp [Params.lift, h1, h2, h3, V3.set, mean, sumV, mean4] <;> refine ⟨?_, ?_⟩ <;> ring_nf <;> simp

theorem mean4_rev (a b c d : P2 K) : mean4 a d c b = mean4 a b c d := by
  simp [mean4]; constructor <;> ring

/-- A triangle that is not turned over: a non-negative multiple of the normal. -/
def Params.Facing (P : Params K) (t : Tri K) : Prop := ∃ k, 0 ≤ k ∧ triangleArea2 t.p1 t.p2 t.p3 = V3.scale k P.outward

/-- What the triangles of one strip satisfy. -/
structure Params.StripTris (P : Params K) (s : State K) (e : Edge K) (ts : List (Tri K)) : Prop where
  area : sumV (ts.map fun t => triangleArea2 t.p1 t.p2 t.p3) = V3.scale (area2 (P.strip s e)) P.outward
  normal : ∀ t ∈ ts, t.normal = P.outward
  plane : ∀ t ∈ ts, t.p1.get P.d3 = P.face ∧ t.p2.get P.d3 = P.face ∧ t.p3.get P.d3 = P.face
  facing : P.Upright s e → ∀ t ∈ ts, P.Facing t
  rect : ∀ l u, (∀ q ∈ P.strip s e, Rect l u q) → ∀ t ∈ ts, ∀ v ∈ [t.p1, t.p2, t.p3], ∃ q, v = P.lift q ∧ Rect l u q
  edges : ∀ g, EdgeQuantity g → edgeSum g ts = P.turn * around (fun p q => g (P.lift p) (P.lift q)) (P.strip s e)

theorem mean4_rect {l u a b c d : P2 K} (ha : Rect l u a) (hb : Rect l u b) (hc : Rect l u c) (hd : Rect l u d) :
    Rect l u (mean4 a b c d) := by
  obtain ⟨⟨a1, a2⟩, a3, a4⟩ := ha
  obtain ⟨⟨b1, b2⟩, b3, b4⟩ := hb
  obtain ⟨⟨c1, c2⟩, c3, c4⟩ := hc
  obtain ⟨⟨d1, d2⟩, d3, d4⟩ := hd
  unfold Rect mean4
  refine ⟨⟨?_, ?_⟩, ?_, ?_⟩ <;> dsimp only
  · rw [le_div_iff₀ (by norm_num)]; linarith
  · rw [div_le_iff₀ (by norm_num)]; linarith
  · rw [le_div_iff₀ (by norm_num)]; linarith
  · rw [div_le_iff₀ (by norm_num)]; linarith

theorem addCorner_spec {P : Params K} (a b c : P2 K) {m : Clip.ClippedMesh K} (hm : m.mesh.check = true) :
    (P.addCorner a b c m).mesh.check = true ∧ ∀ ts, m.mesh.visit = some ts →
      (P.addCorner a b c m).mesh.visit = some (ts ++ [if P.upper ^^ P.switch then ⟨P.lift a, P.lift b, P.lift c, P.normal⟩
        else ⟨P.lift b, P.lift a, P.lift c, P.normal⟩]) := by
  have e : (P.addCorner a b c m).mesh = ⟨m.mesh.vertices ++ [P.lift a, P.lift b, P.lift c],
      m.mesh.triangles ++ [if P.upper ^^ P.switch then ⟨m.mesh.vertices.length, m.mesh.vertices.length + 1, m.mesh.vertices.length + 2⟩
        else ⟨m.mesh.vertices.length + 1, m.mesh.vertices.length, m.mesh.vertices.length + 2⟩], m.mesh.normals ++ [P.normal]⟩ := by
    simp [Params.addCorner, Mesh.addVertex, Mesh.addTriangle]
  rw [e]
  cases P.upper ^^ P.switch
  · exact visit_extend hm _ _ _ _ _ _ (by simp) (by simp) (by simp)
  · exact visit_extend hm _ _ _ _ _ _ (by simp) (by simp) (by simp)

theorem corner_tris {P : Params K} (hA : P.Axes) (a b c : P2 K) :
    triangleArea2 (if P.upper ^^ P.switch then (⟨P.lift a, P.lift b, P.lift c, P.normal⟩ : Tri K)
        else ⟨P.lift b, P.lift a, P.lift c, P.normal⟩).p1 (if P.upper ^^ P.switch then (⟨P.lift a, P.lift b, P.lift c, P.normal⟩ : Tri K)
        else ⟨P.lift b, P.lift a, P.lift c, P.normal⟩).p2 (if P.upper ^^ P.switch then (⟨P.lift a, P.lift b, P.lift c, P.normal⟩ : Tri K)
        else ⟨P.lift b, P.lift a, P.lift c, P.normal⟩).p3 = V3.scale (area2 [a, b, c]) P.outward := by
  rw [← triangle_area hA a b c]
  cases P.upper ^^ P.switch <;> rfl

/-- One triangle as a strip. -/
theorem corner_strip {P : Params K} (hA : P.Axes) {s : State K} {e : Edge K} {a b c : P2 K} (hs : P.strip s e = [a, b, c])
    (hf : P.Upright s e → 0 ≤ area2 [a, b, c]) :
    P.StripTris s e [if P.upper ^^ P.switch then ⟨P.lift a, P.lift b, P.lift c, P.normal⟩
        else ⟨P.lift b, P.lift a, P.lift c, P.normal⟩] := by
  have hc := corner_tris hA a b c
  refine ⟨?_, ?_, ?_, ?_, ?_, ?_⟩
  · rw [hs]
    simp only [List.map_cons, List.map_nil]
    rw [hc]
    apply V3.ext <;> simp [sumV]
  · simp only [List.mem_singleton, forall_eq]
    split <;> rfl
  · simp only [List.mem_singleton, forall_eq]
    split <;> exact ⟨lift_d3 hA _, lift_d3 hA _, lift_d3 hA _⟩
  · intro hu
    simp only [List.mem_singleton, forall_eq]
    exact ⟨_, hf hu, hc⟩
  · intro l u hq
    rw [hs] at hq
    have ha := hq a (by simp)
    have hb := hq b (by simp)
    have hc := hq c (by simp)
    simp only [List.mem_singleton, forall_eq]
    split <;> intro v hv <;> simp only [List.mem_cons, List.not_mem_nil, or_false] at hv <;> rcases hv with rfl | rfl | rfl <;>
      first | exact ⟨a, rfl, ha⟩ | exact ⟨b, rfl, hb⟩ | exact ⟨c, rfl, hc⟩
  · intro g hg
    rw [hs]
    unfold Params.turn
    split
    · simp [edgeSum, edgesOf, around, cyclicPairs]
    · simp [edgeSum, edgesOf, around, cyclicPairs]
      rw [hg.swap (P.lift a) (P.lift b), hg.swap (P.lift b) (P.lift c), hg.swap (P.lift c) (P.lift a)]
      ring

theorem fan4 (a b c d n : V3 K) : triangulation [a, b, c, d] n =
    [⟨a, b, mean [a, b, c, d], n⟩, ⟨b, c, mean [a, b, c, d], n⟩, ⟨c, d, mean [a, b, c, d], n⟩, ⟨d, a, mean [a, b, c, d], n⟩] := rfl

theorem quad_strip {P : Params K} (hA : P.Axes) {s : State K} {e : Edge K} {a b c d : P2 K} (hs : P.strip s e = [a, b, c, d])
    {m m' : Clip.ClippedMesh K} (hm : m.mesh.check = true) (h : P.addQuad a b c d m = some m')
    (hf : P.Upright s e → 0 ≤ area2 [a, b, mean4 a b c d] ∧ 0 ≤ area2 [b, c, mean4 a b c d] ∧
      0 ≤ area2 [c, d, mean4 a b c d] ∧ 0 ≤ area2 [d, a, mean4 a b c d]) :
    m'.mesh.check = true ∧ ∃ ts, P.StripTris s e ts ∧ ∀ us, m.mesh.visit = some us → m'.mesh.visit = some (us ++ ts) := by
  unfold Params.addQuad at h
  obtain ⟨h1, h2⟩ := C25_triangles _ _ _ _ hm h
  refine ⟨h1, _, ?_, h2⟩
  have hlist : (((if P.upper ^^ P.switch then [a, b, c, d] else [a, d, c, b]).map fun p => Clip.bare (P.lift p)).map Clip.Vtx.pt) =
      (if P.upper ^^ P.switch then [a, b, c, d] else [a, d, c, b]).map P.lift := by
    rw [List.map_map]; rfl
  rw [hlist]
  have hlen : ((if P.upper ^^ P.switch then [a, b, c, d] else [a, d, c, b]).map P.lift).length = 4 := by
    split <;> rfl
  obtain ⟨c1, _, c3⟩ := C25_area ((if P.upper ^^ P.switch then [a, b, c, d] else [a, d, c, b]).map P.lift) (by omega) P.normal
  refine ⟨by rw [c1, quad_area hA, hs], c3, ?_, ?_, ?_, ?_⟩
  · intro t ht
    split at ht
    · rw [List.map_cons, List.map_cons, List.map_cons, List.map_cons, List.map_nil, fan4] at ht
      have hmn : mean [P.lift a, P.lift b, P.lift c, P.lift d] = P.lift (mean4 a b c d) := mean_lift hA a b c d
      simp only [List.mem_cons, List.not_mem_nil, or_false] at ht
      rcases ht with rfl | rfl | rfl | rfl <;> rw [hmn] <;> exact ⟨lift_d3 hA _, lift_d3 hA _, lift_d3 hA _⟩
    · rw [List.map_cons, List.map_cons, List.map_cons, List.map_cons, List.map_nil, fan4] at ht
      have hmn : mean [P.lift a, P.lift d, P.lift c, P.lift b] = P.lift (mean4 a d c b) := mean_lift hA a d c b
      simp only [List.mem_cons, List.not_mem_nil, or_false] at ht
      rcases ht with rfl | rfl | rfl | rfl <;> rw [hmn] <;> exact ⟨lift_d3 hA _, lift_d3 hA _, lift_d3 hA _⟩
  · intro hu t ht
    obtain ⟨f1, f2, f3, f4⟩ := hf hu
    cases hx : P.upper ^^ P.switch with
    | true =>
      rw [hx, if_pos rfl, List.map_cons, List.map_cons, List.map_cons, List.map_cons, List.map_nil, fan4] at ht
      have hmn : mean [P.lift a, P.lift b, P.lift c, P.lift d] = P.lift (mean4 a b c d) := mean_lift hA a b c d
      have tr : ∀ p q r : P2 K, triangleArea2 (P.lift p) (P.lift q) (P.lift r) = V3.scale (area2 [p, q, r]) P.outward := by
        intro p q r
        have := triangle_area hA p q r
        rwa [hx, if_pos rfl] at this
      simp only [List.mem_cons, List.not_mem_nil, or_false, hmn] at ht
      rcases ht with rfl | rfl | rfl | rfl
      · exact ⟨_, f1, tr _ _ _⟩
      · exact ⟨_, f2, tr _ _ _⟩
      · exact ⟨_, f3, tr _ _ _⟩
      · exact ⟨_, f4, tr _ _ _⟩
    | false =>
      rw [hx, if_neg (by simp), List.map_cons, List.map_cons, List.map_cons, List.map_cons, List.map_nil, fan4] at ht
      have hmn : mean [P.lift a, P.lift d, P.lift c, P.lift b] = P.lift (mean4 a b c d) := by
        rw [← mean4_rev]; exact mean_lift hA a d c b
      have tr : ∀ p q r : P2 K, triangleArea2 (P.lift q) (P.lift p) (P.lift r) = V3.scale (area2 [p, q, r]) P.outward := by
        intro p q r
        have := triangle_area hA p q r
        rwa [hx, if_neg (by simp)] at this
      simp only [List.mem_cons, List.not_mem_nil, or_false, hmn] at ht
      rcases ht with rfl | rfl | rfl | rfl
      · exact ⟨_, f4, tr _ _ _⟩
      · exact ⟨_, f3, tr _ _ _⟩
      · exact ⟨_, f2, tr _ _ _⟩
      · exact ⟨_, f1, tr _ _ _⟩
  · intro l u hq t ht v hv
    rw [hs] at hq
    have ha := hq a (by simp)
    have hb := hq b (by simp)
    have hc := hq c (by simp)
    have hd := hq d (by simp)
    have he := mean4_rect ha hb hc hd
    have he' := mean4_rect ha hd hc hb
    split at ht
    · rw [List.map_cons, List.map_cons, List.map_cons, List.map_cons, List.map_nil, fan4] at ht
      have hmn : mean [P.lift a, P.lift b, P.lift c, P.lift d] = P.lift (mean4 a b c d) := mean_lift hA a b c d
      simp only [List.mem_cons, List.not_mem_nil, or_false, hmn] at ht
      rcases ht with rfl | rfl | rfl | rfl <;> simp only [List.mem_cons, List.not_mem_nil, or_false] at hv <;>
        rcases hv with rfl | rfl | rfl <;>
        first | exact ⟨a, rfl, ha⟩ | exact ⟨b, rfl, hb⟩ | exact ⟨c, rfl, hc⟩ | exact ⟨d, rfl, hd⟩ | exact ⟨_, rfl, he⟩
    · rw [List.map_cons, List.map_cons, List.map_cons, List.map_cons, List.map_nil, fan4] at ht
      have hmn : mean [P.lift a, P.lift d, P.lift c, P.lift b] = P.lift (mean4 a d c b) := mean_lift hA a d c b
      simp only [List.mem_cons, List.not_mem_nil, or_false, hmn] at ht
      rcases ht with rfl | rfl | rfl | rfl <;> simp only [List.mem_cons, List.not_mem_nil, or_false] at hv <;>
        rcases hv with rfl | rfl | rfl <;>
        first | exact ⟨a, rfl, ha⟩ | exact ⟨b, rfl, hb⟩ | exact ⟨c, rfl, hc⟩ | exact ⟨d, rfl, hd⟩ | exact ⟨_, rfl, he'⟩
  · intro g hg
    rw [hs]
    unfold Params.turn
    have fan : ∀ a b c d n : V3 K, edgeSum g (triangulation [a, b, c, d] n) = g a b + g b c + g c d + g d a := by
      intro a b c d n
      rw [fan4]
      generalize mean [a, b, c, d] = m
      simp only [edgeSum, edgesOf, List.flatMap_cons, List.flatMap_nil, List.append_nil, List.cons_append, List.nil_append, List.map_cons,
        List.map_nil, List.sum_cons, List.sum_nil]
      rw [hg.swap m a, hg.swap m b, hg.swap m c, hg.swap m d]
      ring
    split
    · rw [List.map_cons, List.map_cons, List.map_cons, List.map_cons, List.map_nil, fan]
      simp [around, cyclicPairs]
      ring
    · rw [List.map_cons, List.map_cons, List.map_cons, List.map_cons, List.map_nil, fan]
      simp [around, cyclicPairs]
      rw [hg.swap (P.lift a) (P.lift b), hg.swap (P.lift b) (P.lift c), hg.swap (P.lift c) (P.lift d), hg.swap (P.lift d) (P.lift a)]

theorem area2_three (a b c : P2 K) : area2 [a, b, c] = (b.x - a.x) * (c.y - a.y) - (b.y - a.y) * (c.x - a.x) := by
  simp [area2, cyclicPairs]; ring

theorem area2_four (a b c d : P2 K) : area2 [a, b, c, d] =
    (c.x - a.x) * (d.y - b.y) - (c.y - a.y) * (d.x - b.x) := by
  simp [area2, cyclicPairs]; ring

/-- The four triangles of an upright quadrilateral. -/
theorem quad_facing {a b c d : P2 K} (h1 : b.x = a.x) (h2 : c.x = d.x) (h3 : a.x ≤ d.x) (h4 : b.y ≤ a.y) (h5 : c.y ≤ d.y) :
    0 ≤ area2 [a, b, mean4 a b c d] ∧ 0 ≤ area2 [b, c, mean4 a b c d] ∧ 0 ≤ area2 [c, d, mean4 a b c d] ∧
      0 ≤ area2 [d, a, mean4 a b c d] := by
  simp only [area2_three, mean4, h1, h2]
  have p1 : 0 ≤ (d.x - a.x) * (a.y - b.y) := mul_nonneg (by linarith) (by linarith)
  have p2 : 0 ≤ (d.x - a.x) * (d.y - c.y) := mul_nonneg (by linarith) (by linarith)
  refine ⟨?_, ?_, ?_, ?_⟩ <;> nlinarith [p1, p2]

/-- The triangles of one strip are added to the mesh. -/
theorem addStrip_spec {P : Params K} (hA : P.Axes) {s : State K} {e : Edge K} {m m' : Clip.ClippedMesh K} (hm : m.mesh.check = true)
    (h : P.addStrip s e m = some m') :
    m'.mesh.check = true ∧ ∃ ts, P.StripTris s e ts ∧ ∀ us, m.mesh.visit = some us → m'.mesh.visit = some (us ++ ts) := by
  unfold Params.addStrip at h
  dsimp only at h
  split at h
  · rename_i f hp
    have hup : P.Upright s e → (s.pos.pt e.v1).x ≤ (s.pos.pt e.v2).x ∧ (s.neg.pt f.v1).x = (s.pos.pt e.v1).x ∧
        (s.neg.pt f.v2).x = (s.pos.pt e.v2).x ∧ (s.neg.pt f.v1).y ≤ (s.pos.pt e.v1).y ∧ (s.neg.pt f.v2).y ≤ (s.pos.pt e.v2).y := by
      intro hu
      unfold Params.Upright at hu
      simp only [hp] at hu
      exact hu
    split at h
    · rename_i h1
      cases h
      obtain ⟨g1, g2⟩ := addCorner_spec (P := P) (s.neg.pt f.v1) (s.neg.pt f.v2) (s.pos.pt e.v2) hm
      refine ⟨g1, _, corner_strip hA (by unfold Params.strip; simp only [hp]; rw [if_pos h1]) ?_, g2⟩
      intro hu
      obtain ⟨u0, u1, u2, u3, u4⟩ := hup hu
      rw [area2_three, u1, u2]
      have : 0 ≤ ((s.pos.pt e.v2).x - (s.pos.pt e.v1).x) * ((s.pos.pt e.v2).y - (s.neg.pt f.v2).y) :=
        mul_nonneg (by linarith) (by linarith)
      nlinarith [this]
    · rename_i h1
      split at h
      · rename_i h2
        cases h
        obtain ⟨g1, g2⟩ := addCorner_spec (P := P) (s.neg.pt f.v1) (s.neg.pt f.v2) (s.pos.pt e.v1) hm
        refine ⟨g1, _, corner_strip hA (by unfold Params.strip; simp only [hp]; rw [if_neg h1, if_pos h2]) ?_, g2⟩
        intro hu
        obtain ⟨u0, u1, u2, u3, u4⟩ := hup hu
        rw [area2_three, u1, u2]
        have : 0 ≤ ((s.pos.pt e.v2).x - (s.pos.pt e.v1).x) * ((s.pos.pt e.v1).y - (s.neg.pt f.v1).y) :=
          mul_nonneg (by linarith) (by linarith)
        nlinarith [this]
      · rename_i h2
        refine quad_strip hA (by unfold Params.strip; simp only [hp]; rw [if_neg h1, if_neg h2]) hm h ?_
        intro hu
        obtain ⟨u0, u1, u2, u3, u4⟩ := hup hu
        exact quad_facing u1 u2 u0 u3 u4
  · rename_i hp
    refine quad_strip hA (by unfold Params.strip; simp only [hp]) hm h ?_
    intro hu
    unfold Params.Upright at hu
    simp only [hp] at hu
    exact quad_facing rfl rfl hu.1 hu.2.1 hu.2.2

/-- The triangles of the plane are those of the strips, in the order of the positive edges. -/
theorem triangulate_spec {P : Params K} (hA : P.Axes) {s : State K} {m : Clip.ClippedMesh K} (h : P.triangulate s = .ok m) :
    m.mesh.check = true ∧ ∃ strips, List.Forall₂ (P.StripTris s) s.pos.edges strips ∧ m.mesh.visit = some strips.flatten := by
  have key : ∀ (l : List (Edge K)) (m m' : Clip.ClippedMesh K), m.mesh.check = true →
      l.foldlM (fun m e => P.addStrip s e m) m = some m' →
      m'.mesh.check = true ∧ ∃ strips, List.Forall₂ (P.StripTris s) l strips ∧
        ∀ us, m.mesh.visit = some us → m'.mesh.visit = some (us ++ strips.flatten) := by
    intro l
    induction l with
    | nil =>
      intro m m' hm hf
      simp only [List.foldlM_nil] at hf
      cases hf
      exact ⟨hm, [], List.Forall₂.nil, fun us hus => by simp [hus]⟩
    | cons e l ih =>
      intro m m' hm hf
      rw [List.foldlM_cons] at hf
      obtain ⟨m1, h1, h2⟩ := Option.bind_eq_some_iff.1 hf
      obtain ⟨k1, ts, k2, k3⟩ := addStrip_spec hA hm h1
      obtain ⟨j1, strips, j2, j3⟩ := ih m1 m' k1 h2
      refine ⟨j1, ts :: strips, List.Forall₂.cons k2 j2, ?_⟩
      intro us hus
      rw [j3 _ (k3 us hus), List.flatten_cons, List.append_assoc]
  unfold Params.triangulate at h
  split at h
  · exact absurd h (by simp)
  · split at h
    · exact absurd h (by simp)
    · rename_i m0 hm0
      cases h
      obtain ⟨h1, strips, h2, h3⟩ := key _ _ _ (by rfl) hm0
      exact ⟨h1, strips, h2, by simpa using h3 [] rfl⟩

/-- The area of a strip and the area between the two edges. -/
theorem strip_below {P : Params K} (hP : P.Sound) {s : State K} {e : Edge K} (hu : P.Upright s e) :
    abs (area2 (P.strip s e) / 2 - P.below s e) ≤ P.tol * ((s.pos.pt e.v2).x - (s.pos.pt e.v1).x) / 2 := by
  have htol := hP.tol_pos
  unfold Params.Upright at hu
  unfold Params.strip Params.below
  dsimp only
  cases hp : P.partner s.neg (s.pos.pt e.v1) (s.pos.pt e.v2) e.normal with
  | none =>
    rw [area2_four]
    simp only [under]
    have hw : 0 ≤ P.tol * ((s.pos.pt e.v2).x - (s.pos.pt e.v1).x) / 2 := by
      have := mul_nonneg htol.le (sub_nonneg.2 hu.1)
      linarith
    refine le_trans (le_of_eq ?_) hw
    rw [abs_eq_zero]; ring
  | some f =>
    simp only [hp] at hu
    obtain ⟨u0, u1, u2, u3, u4⟩ := hu
    dsimp only [Cont.ends]
    simp only [under, u1, u2]
    have hw : 0 ≤ (s.pos.pt e.v2).x - (s.pos.pt e.v1).x := sub_nonneg.2 u0
    split
    · rename_i h1
      rw [area2_three, u1, u2]
      have e1 : (((s.pos.pt e.v2).x - (s.pos.pt e.v1).x) * ((s.pos.pt e.v2).y - (s.neg.pt f.v1).y) -
          ((s.neg.pt f.v2).y - (s.neg.pt f.v1).y) * ((s.pos.pt e.v2).x - (s.pos.pt e.v1).x)) / 2 -
          (((s.pos.pt e.v2).x - (s.pos.pt e.v1).x) * ((s.pos.pt e.v1).y + (s.pos.pt e.v2).y) / 2 -
            ((s.pos.pt e.v2).x - (s.pos.pt e.v1).x) * ((s.neg.pt f.v1).y + (s.neg.pt f.v2).y) / 2) =
          ((s.neg.pt f.v1).y - (s.pos.pt e.v1).y) * ((s.pos.pt e.v2).x - (s.pos.pt e.v1).x) / 2 := by ring
      rw [e1, abs_div, abs_mul, abs_of_nonneg hw, abs_of_pos (by norm_num : (0 : K) < 2)]
      have := mul_le_mul_of_nonneg_right h1.le hw
      linarith
    · split
      · rename_i h1
        rw [area2_three, u1, u2]
        have e1 : (((s.pos.pt e.v2).x - (s.pos.pt e.v1).x) * ((s.pos.pt e.v1).y - (s.neg.pt f.v1).y) -
            ((s.neg.pt f.v2).y - (s.neg.pt f.v1).y) * ((s.pos.pt e.v1).x - (s.pos.pt e.v1).x)) / 2 -
            (((s.pos.pt e.v2).x - (s.pos.pt e.v1).x) * ((s.pos.pt e.v1).y + (s.pos.pt e.v2).y) / 2 -
              ((s.pos.pt e.v2).x - (s.pos.pt e.v1).x) * ((s.neg.pt f.v1).y + (s.neg.pt f.v2).y) / 2) =
            ((s.neg.pt f.v2).y - (s.pos.pt e.v2).y) * ((s.pos.pt e.v2).x - (s.pos.pt e.v1).x) / 2 := by ring
        rw [e1, abs_div, abs_mul, abs_of_nonneg hw, abs_of_pos (by norm_num : (0 : K) < 2)]
        have := mul_le_mul_of_nonneg_right h1.le hw
        linarith
      · rw [area2_four, u1, u2]
        have hw2 : 0 ≤ P.tol * ((s.pos.pt e.v2).x - (s.pos.pt e.v1).x) / 2 := by
          have := mul_nonneg htol.le hw
          linarith
        refine le_trans (le_of_eq ?_) hw2
        rw [abs_eq_zero]; ring

end QuESo.Plane
