import Verif.Proofs.Moments
import Verif.Props.Octree
import Verif.Props.Mapping
import Verif.Props.Polynomial

/-!
# C31, C32, C60–C62: the integration rule of a trimmed element

The solver is an arbitrary function `fit` that gives one weight per point (`KeepsPositions`), the sorting
algorithm is any function that sorts (`SortsByWeight`), the geometry is arbitrary.
-/
namespace QuESo.Trimmed
open Mapping Spec
variable {K : Type _} [Field K] [LinearOrder K] [IsStrictOrderedRing K]

/-! ### C31: point elimination -/

/-- **C31** (partial: the target must be above the smallest positive number, and there must be as many
candidates as functions.)  The elimination ends and does what its description says, for every solver. -/
theorem C31_elimination_partial {fit : List (VolPoint K) → List (VolPoint K) × K} (hf : KeepsPositions fit)
    {sort : List (VolPoint K) → List (VolPoint K)} (hs : SortsByWeight sort) {zt mind target : K}
    (ht : mind < target) {o : V3 Nat} {cand : List (VolPoint K)} (hl : numMoments o ≤ cand.length) :
    ∃ r, pointElimination fit sort zt mind target o [] cand = .ok r ∧
      Eliminated fit zt target (numMoments o) (o.x * o.y * o.z) cand r.residual r.points := by
  obtain ⟨r, h1, -, h3⟩ := pointElimination_trace hf hs ht hl
  exact ⟨r, h1, h3⟩

/-- What follows for the returned rule, whatever path the elimination took. -/
theorem eliminated_rule {fit : List (VolPoint K) → List (VolPoint K) × K} (hf : KeepsPositions fit)
    {zt target : K} {nf least : Nat} (hnf : 0 < nf) {cand : List (VolPoint K)} {res : K} {out : List (VolPoint K)}
    (h : Eliminated fit zt target nf least cand res out) :
    ∃ S, PositionsFrom cand S ∧ IsFitOf fit zt S res out ∧ PositionsFrom cand out ∧
      (∀ q ∈ out, zt ≤ q.weight) ∧ out.length ≤ nf ∧ (out = [] ∨ S.length ≤ nf) := by
  have main : ∀ S, PositionsFrom cand S → IsFitOf fit zt S res out → (out = [] ∨ S.length ≤ nf) →
      ∃ S, PositionsFrom cand S ∧ IsFitOf fit zt S res out ∧ PositionsFrom cand out ∧
      (∀ q ∈ out, zt ≤ q.weight) ∧ out.length ≤ nf ∧ (out = [] ∨ S.length ≤ nf) := by
    intro S hS hfit hlen
    refine ⟨S, hS, hfit, ?_, ?_, ?_, hlen⟩
    · rw [hfit.2]
      refine List.Subperm.trans ?_ hS
      rw [← hf S]
      exact (List.filter_sublist.map _).subperm
    · rw [hfit.2]
      intro q hq
      simpa using (List.mem_filter.1 hq).2
    · rcases hlen with h0 | hlen
      · rw [h0]; simp
      · rw [hfit.2]
        exact (List.length_filter_le _ _).trans ((keeps_length hf S).le.trans hlen)
  obtain ⟨S₁, ⟨rest, hp, hlen, hge, hrest⟩, h⟩ := h
  have hS1 : PositionsFrom cand S₁ := by
    unfold PositionsFrom
    rw [← hf cand]
    exact ((List.sublist_append_left S₁ rest).map _).subperm.trans (hp.map _).subperm
  rcases h with ⟨rfl, h1, h2⟩ | ⟨-, -, h⟩ | ⟨h0, k, S, S', hc, -, -, -, h⟩
  · refine main cand (List.Subperm.refl _) ⟨h1, ?_⟩ (Or.inl h2)
    rw [h2, List.filter_eq_nil_iff.2]
    intro q hq
    have hq' : q ∈ rest := by simpa using hp.symm.subset hq
    rcases hrest q hq' with hlt | ⟨hn, -⟩
    · simpa using hlt
    · simp at hn; omega
  · exact main S₁ hS1 h (Or.inr hlen)
  · obtain ⟨-, hsub, -, -⟩ := chain_facts hf hc h0
    refine main S (hsub.subperm.trans hS1) h (Or.inr (le_trans ?_ hlen))
    simpa using hsub.length_le

/-- **C31** (partial, as above.)  The elimination ends; its rule is the one the solver computed for some set `S`
of candidates, without the points of negligible weight; the reported residual is that of this fit; all points
are candidates, none is used twice, all weights are at least the zero tolerance, and there are at most as many
points as functions. -/
theorem C31_rule_partial {fit : List (VolPoint K) → List (VolPoint K) × K} (hf : KeepsPositions fit)
    {sort : List (VolPoint K) → List (VolPoint K)} (hs : SortsByWeight sort) {zt mind target : K}
    (ht : mind < target) {o : V3 Nat} {cand : List (VolPoint K)} (hl : numMoments o ≤ cand.length) :
    ∃ r, pointElimination fit sort zt mind target o [] cand = .ok r ∧
      (∃ S, PositionsFrom cand S ∧ IsFitOf fit zt S r.residual r.points) ∧ PositionsFrom cand r.points ∧
      (∀ q ∈ r.points, zt ≤ q.weight) ∧ r.points.length ≤ (o.x + 1) * (o.y + 1) * (o.z + 1) := by
  obtain ⟨r, h1, h2⟩ := C31_elimination_partial (zt := zt) hf hs ht hl
  obtain ⟨S, a, b, c, d, e, -⟩ := eliminated_rule hf (numFun_pos o) h2
  exact ⟨r, h1, ⟨S, a, b⟩, c, d, e⟩

/-- **C31** If the fit of the heaviest candidates meets the target, so does the returned rule; the target is
missed only if already that first fit misses it, or no candidate has a weight worth keeping. -/
theorem C31_target {fit : List (VolPoint K) → List (VolPoint K) × K} (hf : KeepsPositions fit)
    {zt target : K} {nf least : Nat} {cand : List (VolPoint K)} {res : K} {out : List (VolPoint K)}
    (h : Eliminated fit zt target nf least cand res out) (hres : target ≤ res) :
    ∃ S₁, Heaviest nf zt (fit cand).1 S₁ ∧
      ((S₁ = [] ∧ res = (fit cand).2 ∧ out = []) ∨ IsFitOf fit zt S₁ res out) := by
  obtain ⟨S₁, hH, h⟩ := h
  refine ⟨S₁, hH, ?_⟩
  rcases h with h | ⟨-, -, h⟩ | ⟨h0, k, S, S', hc, -, -, -, h⟩
  · exact Or.inl h
  · exact Or.inr h
  · have := (chain_facts hf hc h0).2.2.1
    rw [h.1] at hres
    exact absurd this (not_lt.2 hres)

/-- **C31** is false of the code for fewer candidates than functions: the first iteration erases a range that
starts behind the end of the vector. -/
theorem C31_false_of_code {fit : List (VolPoint K) → List (VolPoint K) × K} (hf : KeepsPositions fit)
    {sort : List (VolPoint K) → List (VolPoint K)} {zt mind target : K} (ht : mind < target) {o : V3 Nat}
    {old cand : List (VolPoint K)} (hl : cand.length < numMoments o) :
    pointElimination fit sort zt mind target o old cand = .error .ub := by
  unfold pointElimination
  rw [show (1003 : Nat) = 1002 + 1 from rfl, elimLoop, if_pos (Or.inr ⟨ht, by show (0 : Nat) < 1000; decide⟩)]
  simp only [elimStep, if_true]
  rw [if_pos (by rw [keeps_length hf]; exact hl)]

/-- **C31** is false of the code for a target of zero: nothing is fitted, the candidates are returned with the
weights they came with, and the smallest positive number is reported as residual. -/
theorem C31_false_for_zero_target (fit : List (VolPoint K) → List (VolPoint K) × K)
    (sort : List (VolPoint K) → List (VolPoint K)) {zt mind target : K} (ht : target ≤ mind) (o : V3 Nat)
    (cand : List (VolPoint K)) :
    pointElimination fit sort zt mind target o [] cand =
      .ok ⟨mind, cand.filter (fun q => ¬ q.weight < zt), cand⟩ := by
  unfold pointElimination
  rw [show (1003 : Nat) = 1002 + 1 from rfl, elimLoop, if_neg]
  · simp [finish]
  · rintro (h | ⟨h, -⟩)
    · cases h
    · exact absurd h (not_lt.2 ht)

/-! ### C32: the attempts -/

/-- The number of attempts. -/
theorem tries_eq (o : V3 Nat) : (if max3 o = 2 then 4 else 3) = 3 ∨ (if max3 o = 2 then 4 else 3) = 4 := by
  split <;> simp

/-- **C32** (partial: without points in the fictitious domain.)  Assembling the rule ends.  Either there was a
series of attempts of which each repeats the elimination with more candidates because the one before missed the
target, the last one meets the target or was the last that is allowed, and its rule is returned; or no point of
the domain was found with five more refinements, and no rule is returned; or the behaviour is undefined, which happens
only if with five more refinements there are some, but together with the points of the attempt before fewer candidates
than functions. -/
theorem C32_attempts_partial {fit : List (VolPoint K) → List (VolPoint K) × K} (hf : KeepsPositions fit)
    {sort : List (VolPoint K) → List (VolPoint K)} (hs : SortsByWeight sort) {zt mind maxd target : K}
    (ht : mind < target) (hm : target < maxd) (o : V3 Nat) (e : Elem K) :
    ∃ h, AreTries (OctreePoints e.state e.inside e.rule e.active.global e.active.parametric) fit zt target o 0 0 [] h ∧
      ((∃ l, assemble fit sort zt mind maxd target o e none = .ok (l.res, l.out) ∧
          h.getLast? = some l ∧ h.length ≤ (if max o.x (max o.y o.z) = 2 then 4 else 3) ∧
          (l.res ≤ target ∨ h.length = if max o.x (max o.y o.z) = 2 then 4 else 3)) ∨
        (assemble fit sort zt mind maxd target o e none = .ok (1, []) ∧
          h.length < (if max o.x (max o.y o.z) = 2 then 4 else 3) ∧ (∀ t ∈ h, target < t.res) ∧
          OctreePoints e.state e.inside e.rule e.active.global e.active.parametric (levelAfter 0 h + 5) []) ∨
        (assemble fit sort zt mind maxd target o e none = .error .ub ∧
          h.length < (if max o.x (max o.y o.z) = 2 then 4 else 3) ∧ (∀ t ∈ h, target < t.res) ∧
          ∃ D, OctreePoints e.state e.inside e.rule e.active.global e.active.parametric (levelAfter 0 h + 5) D ∧
            D ≠ [] ∧ D.length + (pointsAfter [] h).length < numMoments o)) := by
  have key := assembleLoop_spec hf hs (zt := zt) (o := o) (e := e) ht (if max3 o = 2 then 4 else 3) 0 0
    ⟨maxd, 1, [], [], Octree.new e.active.global e.active.parametric⟩ ⟨rfl, rfl⟩
    (by have := numFun_pos o; simpa using this) rfl hm
  rcases key with ⟨a', h, q1, q2, q3, q4⟩ | ⟨a', h, q1, q2, q3, q4, q5, q6, q7⟩ | ⟨q1, h, D, q2, q3, q4, q5, q6, q7⟩
  · rcases q4 with ⟨-, q4, -, -⟩ | ⟨l, e1, e2, e3, e4⟩
    · split at q4 <;> omega
    · refine ⟨h, q2, Or.inl ⟨l, ?_, e1, q3, e4⟩⟩
      simp only [assemble, q1, e2, e3]
  · refine ⟨h, q2, Or.inr (Or.inl ⟨?_, q3, q4, q7⟩)⟩
    simp only [assemble, q1, q5, q6]
  · refine ⟨h, q2, Or.inr (Or.inr ⟨?_, q3, q4, D, q5, q6, q7⟩)⟩
    simp only [assemble, q1]

theorem isTry_out {D : Nat → List (VolPoint K) → Prop}
    {fit : List (VolPoint K) → List (VolPoint K) × K} (hf : KeepsPositions fit) {zt target : K} {o : V3 Nat}
    {i n : Nat} {prev : List (VolPoint K)} {t : Try K} (h : IsTry D fit zt target o i n prev t)
    (hp : ∀ q ∈ prev, ∃ k pts, D k pts ∧ ∃ c ∈ pts, c.pos = q.pos) :
    t.out.length ≤ numMoments o ∧
    (t.out = [] ∨ (t.res ≤ 1 / 100 ∧ ∃ S, S.length ≤ numMoments o ∧ (∀ q ∈ S, ∃ k pts, D k pts ∧ ∃ c ∈ pts, c.pos = q.pos) ∧
      IsFitOf fit zt S t.res t.out)) ∧
    ∀ q ∈ t.out, zt ≤ q.weight ∧ ∃ k pts, D k pts ∧ ∃ c ∈ pts, c.pos = q.pos := by
  obtain ⟨-, -, ⟨pts, hD, -, -, hc⟩, -, out, hel, hout⟩ := h
  obtain ⟨S, a, b, c, d, e, f⟩ := eliminated_rule hf (numFun_pos o) hel
  have from_ : ∀ S : List (VolPoint K), PositionsFrom t.cand S → ∀ q ∈ S, ∃ k pts, D k pts ∧ ∃ c ∈ pts, c.pos = q.pos := by
    intro S hS q hq
    have : q.pos ∈ t.cand.map VolPoint.pos := hS.subset (List.mem_map_of_mem hq)
    rw [hc] at this
    obtain ⟨x, hx, hxe⟩ := List.mem_map.1 this
    rcases List.mem_append.1 hx with hx | hx
    · exact ⟨_, pts, hD, x, hx, hxe⟩
    · rw [← hxe]; exact hp x hx
  by_cases hr : 1 / 100 < t.res
  · rw [if_pos hr] at hout
    rw [hout]
    exact ⟨by simp, Or.inl rfl, by simp⟩
  · rw [if_neg hr] at hout
    subst hout
    refine ⟨e, ?_, fun q hq => ⟨d q hq, from_ _ c q hq⟩⟩
    rcases f with f | f
    · exact Or.inl f
    · exact Or.inr ⟨not_lt.1 hr, S, f, from_ S a, b⟩

theorem areTries_out {D : Nat → List (VolPoint K) → Prop}
    {fit : List (VolPoint K) → List (VolPoint K) × K} (hf : KeepsPositions fit) {zt target : K} {o : V3 Nat} :
    ∀ {h : List (Try K)} {i n : Nat} {prev : List (VolPoint K)} {l : Try K},
      AreTries D fit zt target o i n prev h → h.getLast? = some l →
      (∀ q ∈ prev, ∃ k pts, D k pts ∧ ∃ c ∈ pts, c.pos = q.pos) →
      l.out.length ≤ numMoments o ∧
      (l.out = [] ∨ (l.res ≤ 1 / 100 ∧ ∃ S, S.length ≤ numMoments o ∧ (∀ q ∈ S, ∃ k pts, D k pts ∧ ∃ c ∈ pts, c.pos = q.pos) ∧
        IsFitOf fit zt S l.res l.out)) ∧
      ∀ q ∈ l.out, zt ≤ q.weight ∧ ∃ k pts, D k pts ∧ ∃ c ∈ pts, c.pos = q.pos := by
  intro h
  induction h with
  | nil => intro i n prev l _ h2; simp at h2
  | cons t h ih =>
    intro i n prev l h1 h2 hp
    have ht := isTry_out hf h1.1 hp
    cases h with
    | nil => simp at h2; subst h2; exact ht
    | cons x h => rw [List.getLast?_cons_cons] at h2; exact ih h1.2.2 h2 fun q hq => (ht.2.2 q hq).2

/-- **C32** (partial, as above.)  If assembling returns, there is no rule or the reported residual is at most
0.01, and then it is the one the solver reported for a set `S` of at most as many points as there are functions, all
found by the octree; the rule consists of these points without those of negligible weight.  All weights are at least
the zero tolerance. -/
theorem C32_limit_partial {fit : List (VolPoint K) → List (VolPoint K) × K} (hf : KeepsPositions fit)
    {sort : List (VolPoint K) → List (VolPoint K)} (hs : SortsByWeight sort) {zt mind maxd target : K}
    (ht : mind < target) (hm : target < maxd) {o : V3 Nat} {e : Elem K} {res : K} {out : List (VolPoint K)}
    (h : assemble fit sort zt mind maxd target o e none = .ok (res, out)) :
    (out = [] ∨ (res ≤ 1 / 100 ∧ ∃ S, S.length ≤ (o.x + 1) * (o.y + 1) * (o.z + 1) ∧
      (∀ q ∈ S, ∃ n pts, OctreePoints e.state e.inside e.rule e.active.global e.active.parametric n pts ∧
        ∃ c ∈ pts, c.pos = q.pos) ∧ IsFitOf fit zt S res out)) ∧
    (∀ q ∈ out, zt ≤ q.weight) ∧ out.length ≤ (o.x + 1) * (o.y + 1) * (o.z + 1) := by
  rcases C32_attempts_partial hf hs (zt := zt) ht hm o e with ⟨hh, b, ⟨l, a, c, -, -⟩ | ⟨a, -, -, -⟩ | ⟨a, -⟩⟩
  · rw [h] at a
    simp only [Except.ok.injEq, Prod.mk.injEq] at a
    obtain ⟨rfl, rfl⟩ := a
    obtain ⟨q1, q2, q3⟩ := areTries_out hf b c (by simp)
    exact ⟨q2, fun q hq => (q3 q hq).1, q1⟩
  · rw [h] at a
    simp only [Except.ok.injEq, Prod.mk.injEq] at a
    obtain ⟨rfl, rfl⟩ := a
    exact ⟨Or.inl rfl, by simp, by simp⟩
  · rw [h] at a; cases a

theorem scaledDown_proper {b c : Box K} {l : Nat} (hb : ProperBox b) (h : ScaledDown b c l) : ProperBox c := by
  have key : ∀ {x y : K}, x * 2 ^ l = y → 0 < y → 0 < x := by
    intro x y h1 h2
    rw [← h1] at h2
    exact pos_of_mul_pos_left h2 (by positivity)
  exact ⟨sub_pos.1 (key h.1 (sub_pos.2 hb.1)), sub_pos.1 (key h.2.1 (sub_pos.2 hb.2.1)),
    sub_pos.1 (key h.2.2 (sub_pos.2 hb.2.2))⟩

/-- **C32** (partial, as above.)  All points of the rule lie in the parametric bounds of the active domain, and
in a box that is inside as a whole, or their images pass the inside test. -/
theorem C32_inside_partial {fit : List (VolPoint K) → List (VolPoint K) × K} (hf : KeepsPositions fit)
    {sort : List (VolPoint K) → List (VolPoint K)} (hs : SortsByWeight sort) {zt mind maxd target : K}
    (ht : mind < target) (hm : target < maxd) {o : V3 Nat} {e : Elem K} (hx : ProperBox e.active.global)
    (hu : ProperBox e.active.parametric) (r1 : NodesInUnit e.rule.x) (r2 : NodesInUnit e.rule.y)
    (r3 : NodesInUnit e.rule.z) {res : K} {out : List (VolPoint K)}
    (h : assemble fit sort zt mind maxd target o e none = .ok (res, out)) :
    ∀ q ∈ out, InBox e.active.parametric q.pos ∧
      ((∃ b, SubBox b e.active.global ∧ InBox b (toGlobal q.pos e.active) ∧ e.state b = .inside) ∨
        e.inside (toGlobal q.pos e.active) = true) := by
  intro q hq
  rcases C32_attempts_partial hf hs (zt := zt) ht hm o e with ⟨hh, b, ⟨l, a, c, -, -⟩ | ⟨a, -, -, -⟩ | ⟨a, -⟩⟩
  · rw [h] at a
    simp only [Except.ok.injEq, Prod.mk.injEq] at a
    obtain ⟨rfl, rfl⟩ := a
    obtain ⟨calls, pts, ⟨t, ht, rfl⟩, p, hp, hpe⟩ := ((areTries_out hf b c (by simp)).2.2 q hq).2
    have hx' : OrderedBox e.active.global := ⟨hx.1.le, hx.2.1.le, hx.2.2.le⟩
    obtain ⟨i1, lf, i2, i3, i4⟩ := Octree.C21_inside hx' hu r1 r2 r3 ht p hp
    rw [hpe] at i1 i3 i4
    obtain ⟨hg, hh⟩ := Octree.refines_good ht
    obtain ⟨-, f2, f3, -, f5, -, f7⟩ := Octree.leaf_facts hg hh hx' hu lf i2
    refine ⟨i1, ?_⟩
    rcases i4 with ⟨-, i4⟩ | i4
    · refine Or.inl ⟨lf.xyz, f7, ?_, i4⟩
      have := (toGlobal_inBox (b := ⟨lf.xyz, lf.uvw⟩) (scaledDown_proper hx f3) f2 q.pos).2 i3
      rwa [f5] at this
    · exact Or.inr i4
  · rw [h] at a
    simp only [Except.ok.injEq, Prod.mk.injEq] at a
    obtain ⟨rfl, rfl⟩ := a
    simp at hq
  · rw [h] at a; cases a

theorem assembleLoop_true {fit : List (VolPoint K) → List (VolPoint K) × K}
    {sort : List (VolPoint K) → List (VolPoint K)} {zt mind target : K} {o : V3 Nat} {e : Elem K} :
    ∀ {left : Nat} {a a' : Assembly K}, assembleLoop fit sort zt mind target o e left a = .ok (a', true) →
      a'.points = [] := by
  intro left
  induction left with
  | zero => intro a a' h; simp [assembleLoop] at h
  | succ left ih =>
    intro a a' h
    unfold assembleLoop at h
    split at h
    · dsimp only at h
      split at h
      · simp at h; rw [← h]
      · split at h
        · cases h
        · exact ih h
    · simp at h

/-- **C62** With a value `alpha` for the fictitious domain, points are added behind the fitted ones, unless no
point of the domain was found at all; else the rule and the residual are the same. -/
theorem C62_appended (fit : List (VolPoint K) → List (VolPoint K) × K)
    (sort : List (VolPoint K) → List (VolPoint K)) (zt mind maxd target : K) (o : V3 Nat) (e : Elem K) (alpha : K)
    {res : K} {out : List (VolPoint K)} (h : assemble fit sort zt mind maxd target o e none = .ok (res, out)) :
    assemble fit sort zt mind maxd target o e (some alpha) = .ok (res, out ++ fictitious e alpha) ∨
    (out = [] ∧ assemble fit sort zt mind maxd target o e (some alpha) = .ok (res, [])) := by
  simp only [assemble] at h ⊢
  generalize hl : assembleLoop fit sort zt mind target o e (if max3 o = 2 then 4 else 3)
    ⟨maxd, 1, [], [], Octree.new e.active.global e.active.parametric⟩ = R at h ⊢
  rcases R with f | ⟨a, b⟩
  · cases h
  · cases b with
    | false => simp at h; simp [h]
    | true => simp at h; right; simpa [h] using (assembleLoop_true hl).symm.trans h.2 |>.symm

/-- **C62** The added points are those points of the Gauss rule of the whole cell that are not inside, with
weights scaled by `alpha`. -/
theorem C62_fictitious (e : Elem K) (alpha : K) (hp : OrderedBox e.cell.parametric) :
    fictitious e alpha = ((Quad.assembleIPs e.rule.x e.rule.y e.rule.z e.cell.parametric).filter
      fun q => ¬ e.inside (toGlobal q.pos e.cell)).map fun q => ⟨q.pos, alpha * q.weight⟩ := by
  have a1 := abs_of_nonneg (sub_nonneg.2 hp.1)
  have a2 := abs_of_nonneg (sub_nonneg.2 hp.2.1)
  have a3 := abs_of_nonneg (sub_nonneg.2 hp.2.2)
  simp only [fictitious, Quad.assembleIPs, List.filter_flatMap, List.map_flatMap, a1, a2, a3]
  congr 1; funext u
  congr 1; funext v
  induction e.rule.z with
  | nil => rfl
  | cons w l ih =>
    rw [List.flatMap_cons, ih, List.map_cons, List.filter_cons]
    by_cases hi : e.inside (toGlobal (⟨e.cell.parametric.lower.x + (e.cell.parametric.upper.x - e.cell.parametric.lower.x) * u.1,
        e.cell.parametric.lower.y + (e.cell.parametric.upper.y - e.cell.parametric.lower.y) * v.1,
        e.cell.parametric.lower.z + (e.cell.parametric.upper.z - e.cell.parametric.lower.z) * w.1⟩) e.cell) = true
    · simp [Quad.tensorPoint, hi]
    · simp [Quad.tensorPoint, hi]
      ring

/-- **C62** Together with the points that are inside, the added points have `alpha` times the volume of the
parametric cell. -/
theorem C62_weights (e : Elem K) (alpha : K) (hp : OrderedBox e.cell.parametric)
    (s1 : (e.rule.x.map Prod.snd).sum = 1) (s2 : (e.rule.y.map Prod.snd).sum = 1)
    (s3 : (e.rule.z.map Prod.snd).sum = 1) :
    ((fictitious e alpha).map VolPoint.weight).sum = alpha * (boxVolume e.cell.parametric -
      (((Quad.assembleIPs e.rule.x e.rule.y e.rule.z e.cell.parametric).filter
        fun q => e.inside (toGlobal q.pos e.cell)).map VolPoint.weight).sum) := by
  rw [C62_fictitious e alpha hp, ← Octree.C50_constants s1 s2 s3 hp]
  generalize Quad.assembleIPs e.rule.x e.rule.y e.rule.z e.cell.parametric = L
  induction L with
  | nil => simp
  | cons q L ih =>
    rw [List.filter_cons, List.filter_cons]
    by_cases hi : e.inside (toGlobal q.pos e.cell) = true
    · simp only [hi, not_true_eq_false, decide_false, Bool.false_eq_true, if_false, if_true, List.map_cons, List.sum_cons] at ih ⊢
      rw [ih]; ring
    · simp only [hi, not_false_eq_true, decide_true, Bool.false_eq_true, if_false, if_true, List.map_cons, List.sum_cons] at ih ⊢
      rw [ih]; ring

/-! ### C60, C61: what the residual means -/

theorem momentFitting_keeps_at {nnls : List (List K) → List K → List K × K} {ct : List K}
    (hn : ∀ A, (nnls A ct).1.length = A.length) (norm : List K → K) (cell : Bounds K) (o : V3 Nat) :
    KeepsPositions (momentFitting nnls norm cell o ct) := by
  intro P
  unfold momentFitting
  dsimp only
  have hl := hn (P.map fun q => (orders o).map fun i => shape cell.parametric i q.pos)
  rw [List.length_map] at hl
  rw [List.map_zipWith]
  generalize (nnls (P.map fun q => (orders o).map fun i => shape cell.parametric i q.pos) ct).1 = ws at hl ⊢
  induction P generalizing ws with
  | nil => simp
  | cons q P ih =>
    cases ws with
    | nil => simp at hl
    | cons w ws => simp at hl ⊢; exact ih _ hl

theorem momentFitting_keeps {nnls : List (List K) → List K → List K × K}
    (hn : ReportsResidual nnls) (norm : List K → K) (cell : Bounds K) (o : V3 Nat) (ct : List K) :
    KeepsPositions (momentFitting nnls norm cell o ct) :=
  momentFitting_keeps_at (fun A => (hn A ct).1) norm cell o

theorem norm_moments {norm : List K → K} (hN : IsNorm norm) (o : V3 Nat) (m : V3 Nat → K) :
    norm ((orders o).map m) ^ 2 = momentSquares o m := by
  rw [(hN _).2, List.map_map, sum_orders]
  rfl

/-- **C60** The residual of a fit is the relative error of all moments up to the given order, in physical space:
physical positions, physical weights, moments of the physical boundary. -/
theorem C60_residual {nnls : List (List K) → List K → List K × K} (hn : ReportsResidual nnls) {norm : List K → K}
    (hN : IsNorm norm) {cell : Bounds K} (hg : ProperBox cell.global) (hp : ProperBox cell.parametric)
    (o : V3 Nat) (bnd : List (BndPoint K)) (hz : momentSquares o (boundaryMoment cell.global bnd) ≠ 0)
    (pts : List (VolPoint K)) :
    0 ≤ (momentFitting nnls norm cell o (constantTerms cell.global o bnd) pts).2 ∧
    (momentFitting nnls norm cell o (constantTerms cell.global o bnd) pts).2 ^ 2 *
        momentSquares o (boundaryMoment cell.global bnd) =
      momentError cell o (momentFitting nnls norm cell o (constantTerms cell.global o bnd) pts).1
        (boundaryMoment cell.global bnd) := by
  rw [constantTerms_eq]
  have hne : norm ((orders o).map (boundaryMoment cell.global bnd)) ≠ 0 := by
    intro e
    apply hz
    rw [← norm_moments hN, e]; simp
  refine ⟨?_, ?_⟩
  · unfold momentFitting
    exact div_nonneg (hn _ _).2.1 (hN _).1
  · rw [← momentFitting_error hn hg hp _ hne, mul_pow, norm_moments hN]

/-- **C60** The rule of a trimmed element (without fictitious points), if the solver gives no negative weights: if it has
points, then with some further points of weight between zero and the zero tolerance its moments up to the given order
agree with those of the boundary up to the reported relative error, which is at most 0.01.  Together there are at most
as many points as moments, and all lie in the parametric bounds of the active domain. -/
theorem C60_assembled {nnls : List (List K) → List K → List K × K} (hn : ReportsResidual nnls) (hw : NoNegative nnls)
    {norm : List K → K} (hN : IsNorm norm) {sort : List (VolPoint K) → List (VolPoint K)} (hs : SortsByWeight sort)
    {zt mind maxd target : K} (ht : mind < target) (hm : target < maxd) {o : V3 Nat} {e : Elem K}
    (hg : ProperBox e.cell.global) (hp : ProperBox e.cell.parametric) (hx : ProperBox e.active.global)
    (hu : ProperBox e.active.parametric) (r1 : NodesInUnit e.rule.x) (r2 : NodesInUnit e.rule.y)
    (r3 : NodesInUnit e.rule.z) {bnd : List (BndPoint K)}
    (hz : momentSquares o (boundaryMoment e.cell.global bnd) ≠ 0) {res : K} {out : List (VolPoint K)}
    (h : assembleIPs nnls norm sort zt mind maxd target o e bnd none = .ok (res, out)) (hout : out ≠ []) :
    ∃ W, out = W.filter (fun q => zt ≤ q.weight) ∧ W.length ≤ numMoments o ∧
      (∀ q ∈ W, 0 ≤ q.weight ∧ InBox e.active.parametric q.pos) ∧ 0 ≤ res ∧ res ≤ 1 / 100 ∧
      res ^ 2 * momentSquares o (boundaryMoment e.cell.global bnd) =
        momentError e.cell o W (boundaryMoment e.cell.global bnd) := by
  have hk := momentFitting_keeps hn norm e.cell o (constantTerms e.cell.global o bnd)
  rcases (C32_limit_partial hk hs ht hm h).1 with h0 | ⟨h1, S, hl, hS, h2, h3⟩
  · exact absurd h0 hout
  · obtain ⟨a, b⟩ := C60_residual hn hN hg hp o bnd hz S
    refine ⟨_, h3, (keeps_length hk S).le.trans hl, ?_, h2 ▸ a, h1, h2 ▸ b⟩
    intro q hq
    constructor
    · unfold momentFitting at hq
      dsimp only at hq
      rw [← List.map_uncurry_zip_eq_zipWith] at hq
      obtain ⟨⟨x, w⟩, hxw, rfl⟩ := List.mem_map.1 hq
      exact div_nonneg (hw _ _ w (List.of_mem_zip hxw).2) (detJ_pos hg hp).le
    · have : q.pos ∈ S.map VolPoint.pos := by rw [← hk S]; exact List.mem_map_of_mem hq
      obtain ⟨s, hs', hse⟩ := List.mem_map.1 this
      obtain ⟨n, pts, ⟨t, ht', rfl⟩, c, hc, hce⟩ := hS s hs'
      have hx' : OrderedBox e.active.global := ⟨hx.1.le, hx.2.1.le, hx.2.2.le⟩
      have := (Octree.C21_inside hx' hu r1 r2 r3 ht' c hc).1
      rwa [hce, hse] at this

omit [IsStrictOrderedRing K] in
theorem ruleMoment_cons (cell : Bounds K) (i : V3 Nat) (q : VolPoint K) (W : List (VolPoint K)) :
    ruleMoment cell i (q :: W) = q.weight * detJ cell * legendre cell.global i (toGlobal q.pos cell) + ruleMoment cell i W := by
  simp [ruleMoment, ipToGlobal]

/-- From the fitted points `W` to the rule. -/
theorem accuracy_of_fit {zt : K} (hzt : 0 ≤ zt) {o : V3 Nat} {e : Elem K}
    (hg : ProperBox e.cell.global) (hp : ProperBox e.cell.parametric) (hsub : SubBox e.active.parametric e.cell.parametric)
    {bnd : List (BndPoint K)} {N : K} (hN0 : 0 < N)
    (hN2 : N ^ 2 = momentSquares o (boundaryMoment e.cell.global bnd)) {res : K} {out W : List (VolPoint K)}
    (w1 : out = W.filter (fun q => zt ≤ q.weight)) (w2 : W.length ≤ numMoments o)
    (w3 : ∀ q ∈ W, 0 ≤ q.weight ∧ InBox e.active.parametric q.pos) (w4 : 0 ≤ res)
    (w6 : res ^ 2 * momentSquares o (boundaryMoment e.cell.global bnd) = momentError e.cell o W (boundaryMoment e.cell.global bnd))
    (a b c : Nat) (ha : a ≤ o.x) (hb : b ≤ o.y) (hc : c ≤ o.z) :
    |ruleMoment e.cell ⟨a, b, c⟩ out - boundaryMoment e.cell.global bnd ⟨a, b, c⟩| ≤
      res * N + numMoments o * (zt * (boxVolume e.cell.global / boxVolume e.cell.parametric)) := by
  have hJ := detJ_pos hg hp
  have hJe : boxVolume e.cell.global / boxVolume e.cell.parametric = detJ e.cell := by
    have hv : 0 < boxVolume e.cell.parametric :=
      mul_pos (mul_pos (sub_pos.2 hp.1) (sub_pos.2 hp.2.1)) (sub_pos.2 hp.2.2)
    rw [div_eq_iff hv.ne']
    exact (C34_integration_points hg hp ⟨e.cell.parametric.lower, 0⟩).2.2.2.2.symm
  rw [hJe]
  have h1 : |ruleMoment e.cell ⟨a, b, c⟩ W - boundaryMoment e.cell.global bnd ⟨a, b, c⟩| ≤ res * N := by
    apply abs_le_of_sq_le_sq _ (by positivity)
    rw [mul_pow, hN2, w6]
    unfold momentError
    refine le_trans ?_ (Finset.single_le_sum (f := fun a => ∑ b ∈ Finset.range (o.y + 1), ∑ c ∈ Finset.range (o.z + 1),
      (ruleMoment e.cell ⟨a, b, c⟩ W - boundaryMoment e.cell.global bnd ⟨a, b, c⟩) ^ 2) (fun i _ => by positivity)
      (Finset.mem_range.2 (Nat.lt_succ_of_le ha)))
    refine le_trans ?_ (Finset.single_le_sum (f := fun b => ∑ c ∈ Finset.range (o.z + 1),
      (ruleMoment e.cell ⟨a, b, c⟩ W - boundaryMoment e.cell.global bnd ⟨a, b, c⟩) ^ 2) (fun i _ => by positivity)
      (Finset.mem_range.2 (Nat.lt_succ_of_le hb)))
    exact Finset.single_le_sum (f := fun c =>
      (ruleMoment e.cell ⟨a, b, c⟩ W - boundaryMoment e.cell.global bnd ⟨a, b, c⟩) ^ 2) (fun i _ => by positivity)
      (Finset.mem_range.2 (Nat.lt_succ_of_le hc))
  have h2 : |ruleMoment e.cell ⟨a, b, c⟩ out - ruleMoment e.cell ⟨a, b, c⟩ W| ≤ W.length * (zt * detJ e.cell) := by
    rw [w1]
    clear w1 w2 w6 h1
    induction W with
    | nil => simp [ruleMoment]
    | cons q W ih =>
      have ih := ih fun q hq => w3 q (by simp [hq])
      obtain ⟨q0, qb⟩ := w3 q (by simp)
      have hL : |legendre e.cell.global ⟨a, b, c⟩ (toGlobal q.pos e.cell)| ≤ 1 := by
        have hin : InBox e.cell.parametric q.pos :=
          ⟨⟨hsub.2.1.1.trans qb.1.1, qb.1.2.trans hsub.2.1.2⟩, ⟨hsub.2.2.1.1.trans qb.2.1.1, qb.2.1.2.trans hsub.2.2.1.2⟩,
            hsub.2.2.2.1.trans qb.2.2.1, qb.2.2.2.trans hsub.2.2.2.2⟩
        have hgl := (toGlobal_inBox hg hp q.pos).2 hin
        unfold legendre
        rw [abs_mul, abs_mul]
        exact mul_le_one₀ (mul_le_one₀ (Poly.C33_bound _ _ _ hg.1 hgl.1.1 hgl.1.2 _) (abs_nonneg _)
          (Poly.C33_bound _ _ _ hg.2.1 hgl.2.1.1 hgl.2.1.2 _)) (abs_nonneg _) (Poly.C33_bound _ _ _ hg.2.2 hgl.2.2.1 hgl.2.2.2 _)
      rw [List.filter_cons, List.length_cons]
      push_cast
      have hnn : 0 ≤ zt * detJ e.cell := by positivity
      split
      · rw [ruleMoment_cons, ruleMoment_cons, add_sub_add_left_eq_sub]
        linarith
      · rename_i hlt
        rw [ruleMoment_cons]
        have hlt : q.weight < zt := by simpa using hlt
        have hq : |q.weight * detJ e.cell * legendre e.cell.global ⟨a, b, c⟩ (toGlobal q.pos e.cell)| ≤ zt * detJ e.cell := by
          rw [abs_mul, abs_of_nonneg (by positivity)]
          calc q.weight * detJ e.cell * |legendre e.cell.global ⟨a, b, c⟩ (toGlobal q.pos e.cell)|
              ≤ q.weight * detJ e.cell * 1 := mul_le_mul_of_nonneg_left hL (by positivity)
            _ ≤ zt * detJ e.cell := by rw [mul_one]; exact mul_le_mul_of_nonneg_right hlt.le hJ.le
        rw [abs_le] at *
        constructor <;> linarith [hq.1, hq.2, ih.1, ih.2]
  have h3 : (W.length : K) * (zt * detJ e.cell) ≤ numMoments o * (zt * detJ e.cell) :=
    mul_le_mul_of_nonneg_right (by exact_mod_cast w2) (by positivity)
  rw [abs_le] at *
  constructor <;> linarith [h1.1, h1.2, h2.1, h2.2]

/-- **C60** Accuracy of the rule of a trimmed element.  Every moment that the rule gives differs from that of the boundary
by at most the reported relative error (at most 0.01) of the norm `N` of all moments, and a multiple of the zero
tolerance for the points left out.  The moment of order zero is the volume. -/
theorem C60_accuracy {nnls : List (List K) → List K → List K × K} (hn : ReportsResidual nnls) (hw : NoNegative nnls)
    {norm : List K → K} (hN : IsNorm norm) {sort : List (VolPoint K) → List (VolPoint K)} (hs : SortsByWeight sort)
    {zt mind maxd target : K} (hzt : 0 ≤ zt) (ht : mind < target) (hm : target < maxd) {o : V3 Nat} {e : Elem K}
    (hg : ProperBox e.cell.global) (hp : ProperBox e.cell.parametric) (hx : ProperBox e.active.global)
    (hu : ProperBox e.active.parametric) (hsub : SubBox e.active.parametric e.cell.parametric)
    (r1 : NodesInUnit e.rule.x) (r2 : NodesInUnit e.rule.y)
    (r3 : NodesInUnit e.rule.z) {bnd : List (BndPoint K)} {N : K} (hN0 : 0 < N)
    (hN2 : N ^ 2 = momentSquares o (boundaryMoment e.cell.global bnd)) {res : K} {out : List (VolPoint K)}
    (h : assembleIPs nnls norm sort zt mind maxd target o e bnd none = .ok (res, out)) (hout : out ≠ []) :
    0 ≤ res ∧ res ≤ 1 / 100 ∧ ∀ a b c, a ≤ o.x → b ≤ o.y → c ≤ o.z →
      |ruleMoment e.cell ⟨a, b, c⟩ out - boundaryMoment e.cell.global bnd ⟨a, b, c⟩| ≤
        res * N + numMoments o * (zt * (boxVolume e.cell.global / boxVolume e.cell.parametric)) := by
  obtain ⟨W, w1, w2, w3, w4, w5, w6⟩ := C60_assembled hn hw hN hs ht hm hg hp hx hu r1 r2 r3
    (by rw [← hN2]; positivity) h hout
  exact ⟨w4, w5, fun a b c ha hb hc => accuracy_of_fit hzt hg hp hsub hN0 hN2 w1 w2 w3 w4 w6 a b c ha hb hc⟩

theorem flatMap_getElem {α β : Type _} (l : List α) (f : α → List β) (n : Nat) (hl : ∀ a ∈ l, (f a).length = n)
    {i j : Nat} (hj : j < n) : (l.flatMap f)[i * n + j]? = (l[i]?).bind fun a => (f a)[j]? := by
  induction l generalizing i with
  | nil => simp
  | cons a l ih =>
    have ha := hl a (by simp)
    rw [List.flatMap_cons]
    cases i with
    | zero => rw [List.getElem?_append_left (by omega)]; simp
    | succ i =>
      rw [List.getElem?_append_right (by rw [ha, Nat.succ_mul]; omega), ha]
      have : (i + 1) * n + j - n = i * n + j := by rw [Nat.succ_mul]; omega
      rw [this, ih (fun x hx => hl x (by simp [hx]))]
      simp

/-- **C61** The right-hand side has one entry for each order, the last index running fastest, and the entry is
the flux of `fluxField` through the given boundary points. -/
theorem C61_entries (cell : Box K) (o : V3 Nat) (bnd : List (BndPoint K)) :
    (constantTerms cell o bnd).length = (o.x + 1) * (o.y + 1) * (o.z + 1) ∧
    ∀ a b c, a ≤ o.x → b ≤ o.y → c ≤ o.z →
      (constantTerms cell o bnd)[(a * (o.y + 1) + b) * (o.z + 1) + c]? = some (boundaryMoment cell bnd ⟨a, b, c⟩) := by
  rw [constantTerms_eq]
  refine ⟨by rw [List.length_map, orders_length]; rfl, fun a b c ha hb hc => ?_⟩
  rw [List.getElem?_map]
  have : (orders o)[(a * (o.y + 1) + b) * (o.z + 1) + c]? = some ⟨a, b, c⟩ := by
    unfold orders
    rw [Nat.add_mul, Nat.mul_assoc, Nat.add_assoc, flatMap_getElem _ _ ((o.y + 1) * (o.z + 1)), List.getElem?_range (by omega)]
    · dsimp only [Option.bind_some]
      rw [flatMap_getElem _ _ (o.z + 1), List.getElem?_range (by omega)]
      · dsimp only [Option.bind_some]
        rw [List.getElem?_map, List.getElem?_range (by omega)]; rfl
      · intro x _; simp
      · omega
    · intro x _; simp [List.length_flatMap, List.map_const', List.sum_replicate]
    · calc b * (o.z + 1) + c < b * (o.z + 1) + (o.z + 1) := by omega
        _ = (b + 1) * (o.z + 1) := by ring
        _ ≤ (o.y + 1) * (o.z + 1) := Nat.mul_le_mul_right _ (by omega)
  rw [this]; rfl

/-- **C61** The divergence of the field is the polynomial (over the reals): so by the divergence theorem the flux
through a closed surface is the integral of the polynomial over the enclosed volume. -/
theorem C61_divergence (c : Box ℝ) (hx : c.lower.x ≠ c.upper.x) (hy : c.lower.y ≠ c.upper.y)
    (hz : c.lower.z ≠ c.upper.z) (i : V3 Nat) (p : V3 ℝ) :
    ∃ dx dy dz, HasDerivAt (fun t => (fluxField c i ⟨t, p.y, p.z⟩).x) dx p.x ∧
      HasDerivAt (fun t => (fluxField c i ⟨p.x, t, p.z⟩).y) dy p.y ∧
      HasDerivAt (fun t => (fluxField c i ⟨p.x, p.y, t⟩).z) dz p.z ∧ dx + dy + dz = legendre c i p := by
  refine ⟨1 / 3 * legendre c i p, 1 / 3 * legendre c i p, 1 / 3 * legendre c i p, ?_, ?_, ?_, by ring⟩
  · have h := Poly.C33_antiderivative c.lower.x c.upper.x p.x hx i.x
    simp only [fluxField, legendre]
    exact (((h.mul_const _).mul_const _).const_mul _)
  · have h := Poly.C33_antiderivative c.lower.y c.upper.y p.y hy i.y
    simp only [fluxField, legendre]
    exact (((h.const_mul _).mul_const _).const_mul _)
  · have h := Poly.C33_antiderivative c.lower.z c.upper.z p.z hz i.z
    simp only [fluxField, legendre]
    exact ((h.const_mul _).const_mul _)

/-! ### Examples, and claims that the code does not keep -/

/-- Sorting by insertion. -/
def sortQ (l : List (VolPoint ℚ)) : List (VolPoint ℚ) := l.insertionSort fun a b => b.weight ≤ a.weight

theorem sortQ_sorts : SortsByWeight sortQ := fun l =>
  ⟨List.perm_insertionSort _ l, by
    have : Std.Total (fun a b : VolPoint ℚ => b.weight ≤ a.weight) := ⟨fun a b => le_total b.weight a.weight⟩
    have : IsTrans _ (fun a b : VolPoint ℚ => b.weight ≤ a.weight) := ⟨fun a b c h1 h2 => h2.trans h1⟩
    exact List.pairwise_insertionSort _ l⟩

/-- The unit box. -/
def unitBox : Box ℚ := ⟨⟨0, 0, 0⟩, ⟨1, 1, 1⟩⟩

/-- An element of which only boxes at the origin are not outside, with the midpoint rule. -/
def elemQ (inside : V3 ℚ → Bool) (rule : List (ℚ × ℚ)) : Elem ℚ :=
  ⟨⟨unitBox, unitBox⟩, ⟨unitBox, unitBox⟩, fun b => if b.lower = ⟨0, 0, 0⟩ then .trimmed else .outside, inside,
    ⟨rule, rule, rule⟩⟩

/-- A solver that gives all points the weight one half and reports a residual that depends on their number. -/
def fitQ (r : Nat → ℚ) (P : List (VolPoint ℚ)) : List (VolPoint ℚ) × ℚ :=
  (P.map fun q => ⟨q.pos, 1 / 2⟩, r P.length)

theorem fitQ_keeps (r : Nat → ℚ) : KeepsPositions (fitQ r) := by
  intro P; simp [fitQ, Function.comp_def]

/-- An elimination with three steps: of twelve candidates eight are kept; the fits of eight and seven points meet
the target, that of six does not; so the rule has seven points. -/
example : (pointElimination (fitQ fun n => if n = 6 then 1 else 1 / 1000) sortQ 0 0 (1 / 100) ⟨1, 1, 1⟩ []
    ((List.range 12).map fun k : Nat => (⟨⟨(k : ℚ), 0, 0⟩, 1⟩ : VolPoint ℚ))).toOption.map
      (fun r => (r.points.length, r.residual)) = some (7, 1 / 1000) := by
  decide +kernel

/-- An element whose rule is found in the first attempt. -/
example : ∃ q, assemble (fitQ fun _ => 1 / 1000) sortQ 0 0 10 (1 / 100) ⟨0, 0, 0⟩
    (elemQ (fun _ => true) [(1 / 2, 1)]) none = .ok (1 / 1000, [q]) := by
  refine ⟨⟨⟨1 / 4, 1 / 4, 1 / 4⟩, 1 / 2⟩, ?_⟩
  decide +kernel

/-- **C32** is false of the code: a domain in a corner of its bounds of which the octree finds one point only,
where eight functions must be fitted, leads to undefined behaviour (for every solver). -/
theorem C32_false_of_code {fit : List (VolPoint ℚ) → List (VolPoint ℚ) × ℚ} (hf : KeepsPositions fit)
    {sort : List (VolPoint ℚ) → List (VolPoint ℚ)} {zt mind maxd target : ℚ} (ht : mind < target)
    (hm : target < maxd) :
    assemble fit sort zt mind maxd target ⟨1, 1, 1⟩
      (elemQ (fun p => decide (p.x < 1 / 100 ∧ p.y < 1 / 100 ∧ p.z < 1 / 100)) [(1 / 4, 1 / 2), (3 / 4, 1 / 2)])
      none = .error .ub := by
  have hd : (distribute (elemQ (fun p => decide (p.x < 1 / 100 ∧ p.y < 1 / 100 ∧ p.z < 1 / 100))
      [(1 / 4, 1 / 2), (3 / 4, 1 / 2)]) 8 (Octree.new unitBox unitBox) []).2.length = 1 := by decide +kernel
  simp only [assemble]
  rw [show (if max3 ⟨1, 1, 1⟩ = 2 then 4 else 3) = 2 + 1 from rfl, assembleLoop, if_pos hm]
  dsimp only
  rw [show numFun ⟨1, 1, 1⟩ * 1 = 8 from rfl]
  have he : (elemQ (fun p => decide (p.x < 1 / 100 ∧ p.y < 1 / 100 ∧ p.z < 1 / 100))
      [(1 / 4, 1 / 2), (3 / 4, 1 / 2)]).active = ⟨unitBox, unitBox⟩ := rfl
  rw [he, if_neg (by rw [hd]; decide), C31_false_of_code hf ht (by
    rw [List.append_nil, hd]; decide)]

/-- **C32** is false of the code with a fictitious domain: a rule whose residual is above the limit is removed,
but then the points of the fictitious domain are added, so the element does have points (and is kept), though none
in its domain. -/
theorem C32_false_with_fictitious : ∃ fit : List (VolPoint ℚ) → List (VolPoint ℚ) × ℚ, KeepsPositions fit ∧
    ∃ q, assemble fit sortQ 0 0 10 (1 / 100) ⟨0, 0, 0⟩
      (elemQ (fun p => decide (p.x < 1 / 3)) [(1 / 2, 1)]) (some (1 / 1000)) = .ok (1 / 2, [q]) ∧
      (elemQ (fun p => decide (p.x < 1 / 3)) [(1 / 2, 1)]).inside (toGlobal q.pos ⟨unitBox, unitBox⟩) = false := by
  refine ⟨fitQ fun _ => 1 / 2, fitQ_keeps _, ⟨⟨1 / 2, 1 / 2, 1 / 2⟩, 1 / 1000⟩, ?_, ?_⟩ <;> decide +kernel

/-- Beside `C62_appended`: the same element with a good solver keeps its rule and gets one more point. -/
example : (assemble (fitQ fun _ => 1 / 1000) sortQ 0 0 10 (1 / 100) ⟨0, 0, 0⟩
    (elemQ (fun p => decide (p.x < 1 / 3)) [(1 / 2, 1)]) (some (1 / 1000))).toOption.map (fun r => r.2.length) =
      some 2 := by decide +kernel

/-- A solver (a bad one: it always gives zero) that reports its residual, and the norm, over the reals. -/
noncomputable def solveZero (A : List (List ℝ)) (b : List ℝ) : List ℝ × ℝ :=
  (List.replicate A.length 0, Real.sqrt ((b.map fun x => x ^ 2).sum))

theorem squares_nonneg (b : List ℝ) : 0 ≤ (b.map fun x => x ^ 2).sum := by
  apply List.sum_nonneg
  intro x hx
  obtain ⟨y, -, rfl⟩ := List.mem_map.1 hx
  positivity

theorem solveZero_reports :
    ReportsResidual solveZero ∧ IsNorm (K := ℝ) fun v => Real.sqrt ((v.map fun x => x ^ 2).sum) := by
  refine ⟨fun A b => ⟨by simp [solveZero], Real.sqrt_nonneg _, ?_⟩, fun v => ⟨Real.sqrt_nonneg _,
    Real.sq_sqrt (squares_nonneg v)⟩⟩
  show Real.sqrt _ ^ 2 = _
  rw [Real.sq_sqrt (squares_nonneg b), range_getD b _ (fun x => x ^ 2)]
  intro k hk
  have : (List.zipWith (fun w (col : List ℝ) => w * col.getD k 0) (solveZero A b).1 A).sum = 0 := by
    simp only [solveZero]
    induction A with
    | nil => simp
    | cons a A ih => simpa [List.replicate_succ] using ih
  rw [this]
  simp [List.getD, hk]

/-- One point in the middle of the top of a unit cube with the normal up: the moment of order zero is one third
(a third of the height times the area). -/
example : boundaryMoment unitBox [⟨⟨1 / 2, 1 / 2, 1⟩, 1, ⟨0, 0, 1⟩⟩] ⟨0, 0, 0⟩ = 1 / 3 ∧
    momentSquares ⟨0, 0, 0⟩ (boundaryMoment unitBox [⟨⟨1 / 2, 1 / 2, 1⟩, 1, ⟨0, 0, 1⟩⟩]) ≠ 0 := by
  constructor <;> decide +kernel

open Classical in
/-- A solver that is good in one case: all columns are `[1]`. -/
noncomputable def solveEqual (A : List (List ℝ)) (b : List ℝ) : List ℝ × ℝ :=
  if A ≠ [] ∧ (∀ c ∈ A, c = [1]) ∧ 0 ≤ b.getD 0 0 ∧ b = [b.getD 0 0] then (List.replicate A.length (b.getD 0 0 / A.length), 0)
  else solveZero A b

theorem solveEqual_good : ReportsResidual solveEqual ∧ NoNegative solveEqual := by
  constructor
  · intro A b
    by_cases h : A ≠ [] ∧ (∀ c ∈ A, c = [1]) ∧ 0 ≤ b.getD 0 0 ∧ b = [b.getD 0 0]
    · obtain ⟨hA, hc, hv, hb⟩ := id h
      rw [show solveEqual A b = (List.replicate A.length (b.getD 0 0 / (A.length : ℝ)), 0) from if_pos h]
      generalize b.getD 0 0 = v at *
      subst hb
      have hl : (A.length : ℝ) ≠ 0 := by
        simpa using hA
      have hrep : A = List.replicate A.length [1] := List.eq_replicate_iff.2 ⟨rfl, hc⟩
      have : ∀ (n : ℕ) (w : ℝ), (List.zipWith (fun w (col : List ℝ) => w * col.getD 0 0) (List.replicate n w)
          (List.replicate n [1])).sum = n * w := by
        intro n w
        induction n with
        | zero => simp
        | succ n ih => rw [List.replicate_succ, List.replicate_succ, List.zipWith_cons_cons, List.sum_cons, ih]; push_cast; simp; ring
      refine ⟨by simp, le_rfl, ?_⟩
      have h2 := this A.length (v / A.length)
      rw [← hrep] at h2
      have h3 : (A.length : ℝ) * (v / A.length) = v := by field_simp
      rw [h3] at h2
      simp only [List.length_singleton, List.range_one, List.map_cons, List.map_nil, List.sum_singleton]
      rw [h2]
      simp
    · simp only [solveEqual, if_neg h]
      exact solveZero_reports.1 A b
  · intro A b w hw
    unfold solveEqual at hw
    split at hw
    · rename_i h
      rw [(List.mem_replicate.1 hw).2]; exact div_nonneg h.2.2.1 (Nat.cast_nonneg _)
    · simp only [solveZero] at hw
      rw [(List.mem_replicate.1 hw).2]

/-- A unit cell that is inside as a whole, with a one-point rule. -/
noncomputable def elemR : Elem ℝ :=
  ⟨⟨⟨⟨0, 0, 0⟩, ⟨1, 1, 1⟩⟩, ⟨⟨0, 0, 0⟩, ⟨1, 1, 1⟩⟩⟩, ⟨⟨⟨0, 0, 0⟩, ⟨1, 1, 1⟩⟩, ⟨⟨0, 0, 0⟩, ⟨1, 1, 1⟩⟩⟩, fun _ => .inside, fun _ => true,
    ⟨[(1 / 2, 1)], [(1 / 2, 1)], [(1 / 2, 1)]⟩⟩

theorem elemR_points {n : Nat} {D : List (VolPoint ℝ)}
    (h : OctreePoints elemR.state elemR.inside elemR.rule elemR.active.global elemR.active.parametric n D) : D ≠ [] := by
  rintro rfl
  obtain ⟨t, h1, h2⟩ := h
  have hb : ProperBox elemR.active.global ∧ ProperBox elemR.active.parametric := by
    simp [elemR, ProperBox]
  have hr : NodesInUnit elemR.rule.x ∧ NodesInUnit elemR.rule.y ∧ NodesInUnit elemR.rule.z := by
    simp only [elemR, NodesInUnit]; norm_num
  have hx : ExactUpTo elemR.rule.x 0 ∧ ExactUpTo elemR.rule.y 0 ∧ ExactUpTo elemR.rule.z 0 := by
    simp [elemR, ExactUpTo]
  have := Octree.C21_exact (inside := elemR.inside) (d := ⟨0, 0, 0⟩) (e := ⟨0, 0, 0⟩) hb.1 hb.2 hr.1 hr.2.1 hr.2.2 hx.1 hx.2.1 hx.2.2
    (fun _ _ => by simp [elemR]) (fun _ _ => rfl) h1 le_rfl le_rfl le_rfl
  rw [← h2] at this
  simp [ruleValue, monomialIntegral, elemR] at this

/-- The cell with any boundary points whose moment of order zero is positive gets a rule with a point, with any solver that
solves one equation whose coefficients are all one. -/
theorem elemR_rule_of {nnls : List (List ℝ) → List ℝ → List ℝ × ℝ} (bnd : List (BndPoint ℝ))
    (hv : 0 < boundaryMoment elemR.cell.global bnd ⟨0, 0, 0⟩)
    (hl : ∀ A v, (nnls A [v]).1.length = A.length) (hw : ∀ A v, ∀ w ∈ (nnls A [v]).1, 0 ≤ w)
    (h1 : ∀ A v, A ≠ [] → (∀ c ∈ A, c = [1]) → 0 < v → (nnls A [v]).2 = 0) :
    ∃ res out, assembleIPs nnls (fun v => Real.sqrt ((v.map fun x => x ^ 2).sum)) (fun l => l.mergeSort fun a b => b.weight ≤ a.weight)
    0 0 2 1 ⟨0, 0, 0⟩ elemR bnd none = .ok (res, out) ∧ out ≠ [] ∧
    (boundaryMoment elemR.cell.global bnd ⟨0, 0, 0⟩) ^ 2 = momentSquares ⟨0, 0, 0⟩ (boundaryMoment elemR.cell.global bnd) := by
  have hsort : SortsByWeight (K := ℝ) (fun l => l.mergeSort fun a b => b.weight ≤ a.weight) := by
    intro l
    refine ⟨List.mergeSort_perm _ _, ?_⟩
    have := List.pairwise_mergeSort (le := fun (a b : VolPoint ℝ) => decide (b.weight ≤ a.weight))
      (fun a b c h1 h2 => by simp at *; linarith) (fun a b => by simp; exact le_total _ _) l
    simpa using this
  have hct : constantTerms elemR.cell.global ⟨0, 0, 0⟩ bnd = [boundaryMoment elemR.cell.global bnd ⟨0, 0, 0⟩] := by
    rw [constantTerms_eq]
    simp only [orders, zero_add, List.range_one, List.flatMap_singleton, List.map_cons, List.map_nil]
  have hk : KeepsPositions (momentFitting nnls (fun v => Real.sqrt ((v.map fun x => x ^ 2).sum)) elemR.cell ⟨0, 0, 0⟩
      (constantTerms elemR.cell.global ⟨0, 0, 0⟩ bnd)) :=
    momentFitting_keeps_at (fun A => by rw [hct]; exact hl A _) _ _ _
  have hfit : ∀ P : List (VolPoint ℝ), P ≠ [] →
      (momentFitting nnls (fun v => Real.sqrt ((v.map fun x => x ^ 2).sum)) elemR.cell ⟨0, 0, 0⟩
        (constantTerms elemR.cell.global ⟨0, 0, 0⟩ bnd) P).2 = 0 := by
    intro P hP
    simp only [momentFitting, hct]
    rw [h1]
    · simp
    · simpa using hP
    · intro c hc
      obtain ⟨q, -, rfl⟩ := List.mem_map.1 hc
      simp [orders, shape, Poly.fx]
    · exact hv
  have hw : ∀ P, ∀ q ∈ (momentFitting nnls (fun v => Real.sqrt ((v.map fun x => x ^ 2).sum)) elemR.cell ⟨0, 0, 0⟩
        (constantTerms elemR.cell.global ⟨0, 0, 0⟩ bnd) P).1, 0 ≤ q.weight := by
    intro P q hq
    unfold momentFitting at hq
    rw [hct] at hq
    dsimp only at hq
    rw [← List.map_uncurry_zip_eq_zipWith] at hq
    obtain ⟨⟨x, w⟩, hxw, rfl⟩ := List.mem_map.1 hq
    exact div_nonneg (hw _ _ w (List.of_mem_zip hxw).2)
      (detJ_pos (by simp [elemR, ProperBox]) (by simp [elemR, ProperBox])).le
  unfold assembleIPs
  generalize momentFitting nnls (fun v => Real.sqrt ((v.map fun x => x ^ 2).sum)) elemR.cell ⟨0, 0, 0⟩
        (constantTerms elemR.cell.global ⟨0, 0, 0⟩ bnd) = fit at hk hfit hw ⊢
  have hms : (boundaryMoment elemR.cell.global bnd ⟨0, 0, 0⟩) ^ 2 = momentSquares ⟨0, 0, 0⟩ (boundaryMoment elemR.cell.global bnd) := by
    simp only [momentSquares, zero_add, Finset.range_one, Finset.sum_singleton]
  have last : ∀ (h : List (Try ℝ)) (i n : Nat) (prev : List (VolPoint ℝ)) (l : Try ℝ),
      AreTries elemR.dist fit 0 1 ⟨0, 0, 0⟩ i n prev h → h.getLast? = some l →
      ∃ j n p, IsTry elemR.dist fit 0 1 ⟨0, 0, 0⟩ j n p l := by
    intro h
    induction h with
    | nil => intro i n prev l _ h2; simp at h2
    | cons t h ih =>
      intro i n prev l h1 h2
      cases h with
      | nil => simp at h2; subst h2; exact ⟨i, n, prev, h1.1⟩
      | cons x h => rw [List.getLast?_cons_cons] at h2; exact ih _ _ _ _ h1.2.2 h2
  rcases C32_attempts_partial hk hsort (zt := 0) (mind := 0) (maxd := 2) (target := 1) one_pos one_lt_two ⟨0, 0, 0⟩ elemR with
    ⟨hh, b, ⟨l, a, c, -, -⟩ | ⟨-, -, -, a⟩ | ⟨-, -, -, D, -, a, b⟩⟩
  · refine ⟨_, _, a, ?_, hms⟩
    obtain ⟨j, n, p, -, -, ⟨pts, -, hne, -, hc⟩, -, out, ⟨S₁, ⟨rest, hp, -, -, hrest⟩, hel⟩, ho⟩ := last _ _ _ _ _ b c
    have hcand : l.cand ≠ [] := by rw [hc]; simp [hne]
    rcases hel with ⟨h0, -, -⟩ | ⟨h0, h1, -⟩ | ⟨h0, k, S, S', hch, -, -, -, h1, h2⟩
    · exfalso
      subst h0
      have hfc := keeps_ne_nil hk hcand
      obtain ⟨x, hx⟩ := List.exists_mem_of_ne_nil _ hfc
      rcases hrest x (by simpa using hp.symm.subset hx) with h | ⟨h, -⟩
      · exact absurd (hw _ x hx) (not_le.2 h)
      · simp [numMoments] at h
    · rw [hfit _ h0] at h1; norm_num at h1
    · have hS := (chain_facts hk hch h0).1
      rw [hfit _ hS] at h1
      rw [ho, h1, if_neg (by norm_num), h2, List.filter_eq_self.2 (fun q hq => by simpa using hw S q hq)]
      exact keeps_ne_nil hk hS
  · exact absurd rfl (elemR_points a)
  · have := List.length_pos_of_ne_nil a
    simp only [numMoments] at b
    omega

/-- The cell gets a rule with the solver above. -/
theorem elemR_rule (bnd : List (BndPoint ℝ)) (hv : 0 < boundaryMoment elemR.cell.global bnd ⟨0, 0, 0⟩) :
    ∃ res out, assembleIPs solveEqual (fun v => Real.sqrt ((v.map fun x => x ^ 2).sum)) (fun l => l.mergeSort fun a b => b.weight ≤ a.weight)
    0 0 2 1 ⟨0, 0, 0⟩ elemR bnd none = .ok (res, out) ∧ out ≠ [] ∧
    (boundaryMoment elemR.cell.global bnd ⟨0, 0, 0⟩) ^ 2 = momentSquares ⟨0, 0, 0⟩ (boundaryMoment elemR.cell.global bnd) := by
  refine elemR_rule_of bnd hv (fun A v => (solveEqual_good.1 A [v]).1) (fun A v => solveEqual_good.2 A [v]) fun A v hA hc hv => ?_
  unfold solveEqual
  rw [if_pos ⟨hA, hc, hv.le, rfl⟩]

/-- Beside `C60_assembled` and `C60_accuracy`: a boundary point for which all hypotheses are met. -/
example : ∃ res out, assembleIPs solveEqual (fun v => Real.sqrt ((v.map fun x => x ^ 2).sum)) (fun l => l.mergeSort fun a b => b.weight ≤ a.weight)
    0 0 2 1 ⟨0, 0, 0⟩ elemR [⟨⟨1 / 2, 1 / 2, 1⟩, 1, ⟨0, 0, 1⟩⟩] none = .ok (res, out) ∧ out ≠ [] ∧
    (1 / 3) ^ 2 = momentSquares ⟨0, 0, 0⟩ (boundaryMoment elemR.cell.global [⟨⟨1 / 2, 1 / 2, 1⟩, 1, ⟨0, 0, 1⟩⟩]) := by
  have hm : boundaryMoment elemR.cell.global [⟨⟨1 / 2, 1 / 2, 1⟩, 1, ⟨0, 0, 1⟩⟩] ⟨0, 0, 0⟩ = (1 / 3 : ℝ) := by
    simp [boundaryMoment, fluxField, Poly.fx, Poly.fxInt, elemR]
  have := elemR_rule [⟨⟨1 / 2, 1 / 2, 1⟩, 1, ⟨0, 0, 1⟩⟩] (by rw [hm]; norm_num)
  rwa [hm] at this

end QuESo.Trimmed
