import Verif.Proofs.MeshView
import Verif.Proofs.Mesh

/-!
# C96, C97, C98: views on meshes, references into meshes and access from Python

`calls grow {} cs` is a new mesh after the calls `cs`; `grow` is the policy of the standard library for the memory of vectors.
-/
namespace QuESo.MView
open QuESo.IO
variable {K : Type _}

/-! ## C96: views -/

/-- What a mesh holds after any sequence of calls does not depend on the memory it uses, and it has one normal for each triangle. -/
theorem C96_contents (grow : Nat → Nat) (cs : List (Call K)) :
    (MMesh.calls grow {} cs).map MMesh.mesh = afterAll ⟨[], [], []⟩ cs ∧
    ∀ m, MMesh.calls grow {} cs = some m → m.mesh.triangles.length = m.mesh.normals.length := by
  have e := calls_mesh grow cs ({} : MMesh K)
  refine ⟨e, fun m hm => ?_⟩
  rw [hm] at e
  exact afterAll_lengths cs rfl e.symm

/-- A view that was made of a mesh after any calls shows the triangles of the mesh: single ones, all, and those with given indices, also
repeatedly and in any order.  If the mesh is valid, every triangle can be read. -/
theorem C96_view (grow : Nat → Nat) (cs : List (Call K)) (m : MMesh K) (hm : MMesh.calls grow {} cs = some m) :
    m.viewNum = m.mesh.triangles.length ∧ (∀ tid, m.viewCorners tid = m.mesh.corners tid) ∧
    (∀ tid, m.viewTriangle m.view tid = m.mesh.triangle tid) ∧
    (∀ is, m.viewTriangles m.view is = is.mapM m.mesh.triangle) ∧ (∀ is, m.viewVisit is = is.mapM m.mesh.triangle) ∧
    (m.mesh.check = true → ∃ ts, m.mesh.visit = some ts ∧ ts.length = m.viewNum ∧
      m.viewVisit (List.range m.viewNum) = some ts ∧ m.viewTriangles m.view (List.range m.viewNum) = some ts ∧
      ∀ tid, m.viewTriangle m.view tid = ts[tid]?) := by
  have h1 : ∀ tid, m.viewTriangle m.view tid = m.mesh.triangle tid := viewTriangle_self m
  have h2 : ∀ is, m.viewTriangles m.view is = is.mapM m.mesh.triangle := by
    intro is
    unfold MMesh.viewTriangles
    congr 1
    funext i; exact h1 i
  refine ⟨rfl, fun _ => rfl, h1, h2, viewVisit_eq m, fun hc => ?_⟩
  have hl := (C96_contents grow cs).2 m hm
  have hsome : ∀ i, i < m.mesh.triangles.length → ∃ t, m.mesh.triangle i = some t := by
    intro i hi
    obtain ⟨c, ec⟩ := corners_some hc hi
    refine ⟨⟨c.x, c.y, c.z, m.mesh.normals[i]'(by omega)⟩, ?_⟩
    unfold Mesh.triangle
    rw [ec, List.getElem?_eq_getElem (by omega)]
  have hex : ∃ ts, m.mesh.visit = some ts := by
    unfold Mesh.visit
    generalize m.mesh.triangles.length = n at hsome
    induction n with
    | zero => exact ⟨[], rfl⟩
    | succ n ih =>
      obtain ⟨ts, hts⟩ := ih (fun i hi => hsome i (by omega))
      obtain ⟨t, ht⟩ := hsome n (by omega)
      exact ⟨ts ++ [t], by rw [List.range_succ, List.mapM_append, hts]; simp [ht]⟩
  obtain ⟨ts, hts⟩ := hex
  obtain ⟨l1, l2⟩ := mapM_range_some _ _ _ hts
  refine ⟨ts, hts, l1, by rw [viewVisit_eq]; exact hts, by rw [h2]; exact hts, fun tid => ?_⟩
  rw [h1]
  by_cases hi : tid < m.mesh.triangles.length
  · exact l2 tid hi
  · rw [List.getElem?_eq_none (by omega)]
    unfold Mesh.triangle Mesh.corners
    rw [List.getElem?_eq_none (by omega)]

/-- What holds of a view if the mesh is changed after the view was made: the number of triangles, the corners and all that is passed to
callbacks are always those of the mesh now; triangles read one by one with their normals are those of the mesh now if memory was reserved
for all that is added, and if their index was there already when the view was made.
Missing for the full property: single triangles with normals after additions for which no memory was reserved. -/
theorem C96_later_partial (grow : Nat → Nat) (cs cs' : List (Call K)) (m m' : MMesh K) (hm : MMesh.calls grow {} cs = some m)
    (hm' : m.calls grow cs' = some m') :
    m'.viewNum = m'.mesh.triangles.length ∧ (∀ tid, m'.viewCorners tid = m'.mesh.corners tid) ∧
    (∀ is, m'.viewVisit is = is.mapM m'.mesh.triangle) ∧
    ∀ nv nt, nv ≤ m.vertices.cap → nt ≤ m.triangles.cap → nt ≤ m.normals.cap → Within nv nt m.mesh cs' →
      ∀ tid, tid < m.mesh.triangles.length → m'.viewTriangle m.view tid = m'.mesh.triangle tid := by
  refine ⟨rfl, fun _ => rfl, viewVisit_eq m', fun nv nt hv ht hn hw tid htid => ?_⟩
  have hl := (C96_contents grow cs).2 m hm
  have s := calls_memory grow cs' hl hv ht hn hw hm'
  unfold MMesh.viewTriangle MMesh.view Vec.readSpan Vec.span
  dsimp only
  have hlt : tid < m.normals.data.length := by
    have : m.mesh.normals.length = m.normals.data.length := rfl
    omega
  rw [if_pos ⟨s.n.1.symm, hlt⟩]
  rfl

/-- The memory that `Reserve` gives: for `n` triangles and half as many vertices. -/
theorem C96_reserve (grow : Nat → Nat) (m m' : MMesh K) (n : Nat) (h : m.call grow (.reserve n) = some m') :
    (n + 1) / 2 ≤ m'.vertices.cap ∧ n ≤ m'.triangles.cap ∧ n ≤ m'.normals.cap ∧ m'.mesh = m.mesh := by
  cases h
  refine ⟨(reserve_cap _ _).1, (reserve_cap _ _).1, (reserve_cap _ _).1, ?_⟩
  unfold MMesh.mesh
  dsimp only
  rw [reserve_data, reserve_data, reserve_data]

/-- Calls that build a mesh with one triangle. -/
def exCalls : List (Call ℚ) :=
  [.addVertex ⟨0, 0, 0⟩, .addVertex ⟨1, 0, 0⟩, .addVertex ⟨0, 1, 0⟩, .addTriangle ⟨0, 1, 2⟩ ⟨0, 0, 1⟩]

/-- The policy that doubles. -/
def exGrow (n : Nat) : Nat := if n = 0 then 1 else 2 * n

/-- The calls before a view, with memory for four triangles. -/
def exFirst : List (Call ℚ) := .reserve 4 :: exCalls

/-- FALSE of the code: 'a view shows the triangles of its mesh, also after the mesh was changed'.  After one triangle was added to a mesh
with one triangle, the view reads memory that is no longer in use: neither the old nor the new triangle can be read with its normal, although
both are there. With reserved memory the old triangle can be read, but the new one cannot. -/
theorem C96_later_false_of_code :
    ∃ (m m' n n' : MMesh ℚ), MMesh.calls exGrow {} exCalls = some m ∧ m.call exGrow (.addTriangle ⟨0, 2, 1⟩ ⟨0, 0, -1⟩) = some m' ∧
      m'.viewNum = 2 ∧ m'.mesh.triangle 0 = some ⟨⟨0, 0, 0⟩, ⟨1, 0, 0⟩, ⟨0, 1, 0⟩, ⟨0, 0, 1⟩⟩ ∧ (m'.mesh.triangle 1).isSome ∧
      m'.viewTriangle m.view 0 = none ∧ m'.viewTriangle m.view 1 = none ∧
      MMesh.calls exGrow {} exFirst = some n ∧ n.call exGrow (.addTriangle ⟨0, 2, 1⟩ ⟨0, 0, -1⟩) = some n' ∧
      n'.viewTriangle n.view 0 = n'.mesh.triangle 0 ∧ (n'.mesh.triangle 0).isSome ∧ (n'.mesh.triangle 1).isSome ∧ n'.viewTriangle n.view 1 = none := by
  refine ⟨_, _, _, _, rfl, rfl, ?_, ?_, ?_, ?_, ?_, rfl, rfl, ?_, ?_, ?_, ?_⟩ <;> decide +kernel

/-- The hypotheses of `C96_later_partial` can be met: memory for four triangles, a second triangle is added and the first is removed. -/
example : ∃ m m' : MMesh ℚ, MMesh.calls exGrow {} (exFirst ++ [.addTriangle ⟨1, 2, 0⟩ ⟨0, 0, 1⟩]) = some m ∧
    m.calls exGrow [.addTriangle ⟨0, 2, 1⟩ ⟨0, 0, -1⟩, .removeTriangle 0] = some m' ∧ 3 ≤ m.vertices.cap ∧ 4 ≤ m.triangles.cap ∧ 4 ≤ m.normals.cap ∧
    Within 3 4 m.mesh [.addTriangle ⟨0, 2, 1⟩ ⟨0, 0, -1⟩, .removeTriangle 0] ∧
    m'.viewTriangle m.view 0 = some ⟨⟨0, 0, 0⟩, ⟨0, 1, 0⟩, ⟨1, 0, 0⟩, ⟨0, 0, -1⟩⟩ := by
  refine ⟨_, _, rfl, rfl, by decide +kernel, by decide +kernel, by decide +kernel, ?_, by decide +kernel⟩
  exact within_cons (fun n h => by cases h) rfl (by decide +kernel) (by decide +kernel)
    (within_cons (fun n h => by cases h) rfl (by decide +kernel) (by decide +kernel) trivial)

/-- Calling back for triangles: if they all can be read, the callback is called for them in the given order, up to and including the first
one at which it asks to stop (`k` calls), and not again. -/
theorem C96_each {S T : Type _} (get : Nat → Option T) (cb : S → T → S × Bool) (is : List Nat) (ts : List T) (s : S) (h : is.mapM get = some ts) :
    ∃ k, k ≤ ts.length ∧ eachTriangle get cb is s = some ((ts.take k).foldl (fun s t => (cb s t).1) s) ∧
      (∀ j t, j + 1 < k → ts[j]? = some t → (cb ((ts.take j).foldl (fun s t => (cb s t).1) s) t).2 = false) ∧
      (k < ts.length → ∃ t, 0 < k ∧ ts[k - 1]? = some t ∧ (cb ((ts.take (k - 1)).foldl (fun s t => (cb s t).1) s) t).2 = true) :=
  eachTriangle_spec get cb is ts s h

/-- `C96_each` is not empty: a search that stops at the second of three. -/
example : [5, 6, 7].mapM (fun i => if i < 8 then some (10 * i) else none) = some [50, 60, 70] ∧
    eachTriangle (fun i => if i < 8 then some (10 * i) else none) (fun (s : List Nat) t => (s ++ [t], t == 60)) [5, 6, 7] [] = some [50, 60] := by
  decide +kernel

/-- A view on a mesh of another type whose triangles can all be read shows the same triangles with computed normals; it shows the same as a view on a
mesh of this library with the same corners and such normals. -/
theorem C96_foreign {F : Type _} (b : Foreign F K) (normal : V3 (V3 K) → V3 K) (f : F) (cs : List (V3 (V3 K)))
    (h : (List.range (b.num f)).mapM (b.corners f) = some cs) :
    ∃ ns, b.view normal f = some ns ∧
      (∀ tid c, cs[tid]? = some c → b.viewTriangle ns f tid = some ⟨c.x, c.y, c.z, normal c⟩) ∧
      (∀ is, (∀ i ∈ is, i < b.num f) → b.viewVisit ns f is = is.mapM fun i => (cs[i]?).map fun c => ⟨c.x, c.y, c.z, normal c⟩) ∧
      ∀ m : MMesh K, m.viewNum = b.num f → (∀ i, i < b.num f → m.mesh.triangle i = (cs[i]?).map fun c => ⟨c.x, c.y, c.z, normal c⟩) →
        ∀ is, (∀ i ∈ is, i < b.num f) → b.viewVisit ns f is = m.viewVisit is := by
  obtain ⟨l1, l2⟩ := mapM_range_some _ _ _ h
  have hv : b.view normal f = some (cs.map normal) := by
    unfold Foreign.view
    rw [foreign_view, h]; rfl
  have ht : ∀ tid c, cs[tid]? = some c → b.viewTriangle (cs.map normal) f tid = some ⟨c.x, c.y, c.z, normal c⟩ := by
    intro tid c hc
    have hlt : tid < b.num f := by rw [← l1]; exact (List.getElem?_eq_some_iff.1 hc).1
    unfold Foreign.viewTriangle
    rw [l2 tid hlt, hc, List.getElem?_map, hc]; rfl
  have hvis : ∀ is, (∀ i ∈ is, i < b.num f) →
      b.viewVisit (cs.map normal) f is = is.mapM fun i => (cs[i]?).map fun c => ⟨c.x, c.y, c.z, normal c⟩ := by
    intro is
    induction is with
    | nil => intro _; rfl
    | cons i is ih =>
      intro hi
      have hi1 : i < cs.length := by rw [l1]; exact hi i (List.mem_cons_self ..)
      unfold Foreign.viewVisit
      rw [List.mapM_cons, List.mapM_cons, ht i _ (List.getElem?_eq_getElem hi1), List.getElem?_eq_getElem hi1]
      have := ih (fun j hj => hi j (List.mem_cons_of_mem _ hj))
      unfold Foreign.viewVisit at this
      rw [this]; rfl
  refine ⟨_, hv, ht, hvis, fun m _ hm is hi => ?_⟩
  rw [hvis is hi, viewVisit_eq]
  clear hvis
  induction is with
  | nil => rfl
  | cons i is ih =>
    rw [List.mapM_cons, List.mapM_cons, hm i (hi i (List.mem_cons_self ..)), ih (fun j hj => hi j (List.mem_cons_of_mem _ hj))]

/-- The binding of a mesh that is a list of corners. -/
def exForeign : Foreign (List (V3 (V3 ℚ))) ℚ := ⟨List.length, fun l i => l[i]?⟩

/-- `C96_foreign` is not empty, and FALSE of the code: 'a view on a mesh of another type shows its triangles also after the mesh was changed'.
The normal remains the one computed at first: here a triangle is turned over and the view still reports the old normal (`normal` stands for a function
that gives the normal of these two triangles); an added triangle cannot be read. -/
theorem C96_foreign_later_false_of_code :
    let up : V3 (V3 ℚ) := ⟨⟨0, 0, 0⟩, ⟨1, 0, 0⟩, ⟨0, 1, 0⟩⟩
    let down : V3 (V3 ℚ) := ⟨⟨0, 0, 0⟩, ⟨0, 1, 0⟩, ⟨1, 0, 0⟩⟩
    let normal : V3 (V3 ℚ) → V3 ℚ := fun c => if c = up then ⟨0, 0, 1⟩ else ⟨0, 0, -1⟩
    (List.range (exForeign.num [up])).mapM (exForeign.corners [up]) = some [up] ∧
    ∃ ns, exForeign.view normal [up] = some ns ∧ exForeign.viewTriangle ns [up] 0 = some ⟨up.x, up.y, up.z, ⟨0, 0, 1⟩⟩ ∧
      exForeign.viewTriangle ns [down] 0 = some ⟨down.x, down.y, down.z, ⟨0, 0, 1⟩⟩ ∧ normal down = ⟨0, 0, -1⟩ ∧
      exForeign.num [up, down] = 2 ∧ exForeign.viewTriangle ns [up, down] 1 = none := by
  refine ⟨by decide +kernel, [⟨0, 0, 1⟩], ?_, ?_, ?_, ?_, ?_, ?_⟩ <;> decide +kernel

/-! ## C97: references into a mesh -/

/-- What holds of a triangle object that was handed out earlier: it gives the corners and the normal it had then, as long as only vertices and
triangles are added for which memory was reserved.
Missing for the full property: additions without reserved memory. -/
theorem C97_triangle_object_partial (grow : Nat → Nat) (cs cs' : List (Call K)) (m m' : MMesh K) (hm : MMesh.calls grow {} cs = some m)
    (hm' : m.calls grow cs' = some m') (hadd : ∀ c ∈ cs', (∃ v, c = .addVertex v) ∨ ∃ t nrm, c = .addTriangle t nrm)
    (nv nt : Nat) (hv : nv ≤ m.vertices.cap) (ht : nt ≤ m.triangles.cap) (hn : nt ≤ m.normals.cap) (hw : Within nv nt m.mesh cs')
    (tid : Nat) (t : Tri K) (h : m.mesh.triangle tid = some t) :
    ∃ p, m.proxy tid = some p ∧ m.readProxy p = some t ∧ m'.readProxy p = some t := by
  obtain ⟨p, p1, p2⟩ := readProxy_spec h
  have hl := (C96_contents grow cs).2 m hm
  have s := calls_memory grow cs' hl hv ht hn hw hm'
  refine ⟨p, p1, p2, ?_⟩
  have key : ∀ (cs' : List (Call K)) (m m' : MMesh K), m.calls grow cs' = some m' →
      (∀ c ∈ cs', (∃ v, c = .addVertex v) ∨ ∃ t nrm, c = .addTriangle t nrm) →
      ∃ ev en, m'.vertices.data = m.vertices.data ++ ev ∧ m'.normals.data = m.normals.data ++ en := by
    intro cs'
    induction cs' with
    | nil => intro m m' e _; cases e; exact ⟨[], [], by simp, by simp⟩
    | cons c cs' ih =>
      intro m m' e hc
      unfold MMesh.calls at e
      rw [List.foldlM_cons] at e
      rcases hc c (List.mem_cons_self ..) with ⟨v, rfl⟩ | ⟨t, nrm, rfl⟩
      · obtain ⟨ev, en, e1, e2⟩ := ih _ _ e (fun c hc' => hc c (List.mem_cons_of_mem _ hc'))
        refine ⟨[v] ++ ev, en, ?_, e2⟩
        rw [e1, ← List.append_assoc, ← push_data grow]
      · obtain ⟨ev, en, e1, e2⟩ := ih _ _ e (fun c hc' => hc c (List.mem_cons_of_mem _ hc'))
        refine ⟨ev, [nrm] ++ en, e1, ?_⟩
        rw [e2, ← List.append_assoc, ← push_data grow]
  obtain ⟨ev, en, e1, e2⟩ := key cs' m m' hm' hadd
  rw [readProxy_later s ev en e1 e2 p1, p2]

/-- FALSE of the code: 'a triangle object that was handed out keeps its values'.  Here two vertices are added to the mesh after the triangle was handed out;
its corners then refer to memory that is no longer in use. -/
theorem C97_triangle_object_false_of_code :
    ∃ (m m' : MMesh ℚ) (p : MMesh.Proxy), MMesh.calls exGrow {} exCalls = some m ∧ m.calls exGrow [.addVertex ⟨5, 5, 5⟩, .addVertex ⟨6, 6, 6⟩] = some m' ∧
      m.proxy 0 = some p ∧ m.readProxy p = some ⟨⟨0, 0, 0⟩, ⟨1, 0, 0⟩, ⟨0, 1, 0⟩, ⟨0, 0, 1⟩⟩ ∧ m'.readProxy p = none := by
  refine ⟨_, _, ⟨(3, 0), (3, 1), (3, 2), (1, 0)⟩, rfl, rfl, ?_, ?_, ?_⟩ <;> decide +kernel

/-- The hypotheses of `C97_triangle_object_partial` can be met: one vertex and one triangle are added. -/
example : ∃ m m' : MMesh ℚ, MMesh.calls exGrow {} (.reserve 8 :: exCalls) = some m ∧
    m.calls exGrow [.addVertex ⟨5, 5, 5⟩, .addTriangle ⟨0, 1, 3⟩ ⟨0, -1, 0⟩] = some m' ∧ 4 ≤ m.vertices.cap ∧ 8 ≤ m.triangles.cap ∧ 8 ≤ m.normals.cap ∧
    Within 4 8 m.mesh [.addVertex ⟨5, 5, 5⟩, .addTriangle ⟨0, 1, 3⟩ ⟨0, -1, 0⟩] ∧ (m.mesh.triangle 0).isSome := by
  refine ⟨_, _, rfl, rfl, by decide +kernel, by decide +kernel, by decide +kernel, ?_, by decide +kernel⟩
  exact within_cons (fun n h => by cases h) rfl (by decide +kernel) (by decide +kernel)
    (within_cons (fun n h => by cases h) rfl (by decide +kernel) (by decide +kernel) trivial)

/-- What holds of a mesh that is appended to itself: with memory for twice its vertices it holds all its vertices and triangles twice, the second time
with indices of the new vertices.
Missing for the full property: meshes without this memory. -/
theorem C97_append_self_partial (grow : Nat → Nat) (m : MMesh K) (hl : m.mesh.triangles.length = m.mesh.normals.length)
    (hv : 2 * m.mesh.vertices.length ≤ m.vertices.cap ∨ 2 * m.mesh.vertices.length ≤ m.mesh.triangles.length) :
    ∃ m', m.appendSelf grow = some m' ∧
      m'.mesh = ⟨m.mesh.vertices ++ m.mesh.vertices,
        m.mesh.triangles ++ m.mesh.triangles.map (fun t =>
          ⟨t.x + m.mesh.vertices.length, t.y + m.mesh.vertices.length, t.z + m.mesh.vertices.length⟩),
        m.mesh.normals ++ m.mesh.normals⟩ := by
  have hl' : m.triangles.data.length = m.normals.data.length := hl
  have hv' : 2 * m.vertices.data.length ≤ m.vertices.cap ∨ 2 * m.vertices.data.length ≤ m.triangles.data.length := hv
  unfold MMesh.appendSelf
  dsimp only
  set v := m.vertices.reserve ((m.triangles.data.length + m.triangles.data.length + 1) / 2) with hvdef
  have hd : v.data = m.vertices.data := reserve_data _ _
  have hcap := reserve_cap m.vertices ((m.triangles.data.length + m.triangles.data.length + 1) / 2)
  rw [← hvdef] at hcap
  have hs : v.span = ⟨v.block, m.vertices.data.length⟩ := by unfold Vec.span; rw [hd]
  have h1 : MMesh.appendVerticesSelf grow v.span v (List.range v.data.length) = some ⟨v.block, v.cap, m.vertices.data ++ m.vertices.data⟩ := by
    rw [hs, List.range_eq_range', hd]
    exact appendVerticesSelf_spec grow m.vertices.data m.vertices.data.length 0 v (by omega) (by rw [hd]; simp) (by omega)
  rw [h1]
  dsimp only
  set t := m.triangles.reserve (m.triangles.data.length + m.triangles.data.length) with htdef
  set w := m.normals.reserve (m.triangles.data.length + m.triangles.data.length) with hwdef
  have htd : t.data = m.triangles.data := reserve_data _ _
  have hwd : w.data = m.normals.data := reserve_data _ _
  have ct := (reserve_cap m.triangles (m.triangles.data.length + m.triangles.data.length)).1
  have cw := (reserve_cap m.normals (m.triangles.data.length + m.triangles.data.length)).1
  rw [← htdef] at ct
  rw [← hwdef] at cw
  have hst : t.span = ⟨t.block, m.triangles.data.length⟩ := by unfold Vec.span; rw [htd]
  have hsw : w.span = ⟨w.block, m.triangles.data.length⟩ := by unfold Vec.span; rw [hwd, hl']
  rw [hst, hsw, List.range_eq_range', htd]
  obtain ⟨m', e1, e2⟩ := appendTrianglesSelf_spec grow m.vertices.data.length ⟨v.block, v.cap, m.vertices.data ++ m.vertices.data⟩ m.triangles.data
    m.normals.data hl' m.triangles.data.length 0 t w (by omega) (by rw [htd]; simp) (by rw [hwd]; simp) (by omega) (by omega)
  exact ⟨m', e1, e2⟩

/-- FALSE of the code: 'a mesh can be appended to itself'.  With one triangle whose vertices were added one by one the loop reads memory that is no longer in use. -/
theorem C97_append_self_false_of_code :
    ∃ m : MMesh ℚ, MMesh.calls exGrow {} exCalls = some m ∧ m.mesh.check = true ∧ m.appendSelf exGrow = none := by
  refine ⟨_, rfl, ?_, ?_⟩ <;> decide +kernel

/-- The hypotheses of `C97_append_self_partial` can be met. -/
example : ∃ m m' : MMesh ℚ, MMesh.calls exGrow {} (.reserve 12 :: exCalls) = some m ∧ 2 * m.mesh.vertices.length ≤ m.vertices.cap ∧
    m.mesh.triangles.length = m.mesh.normals.length ∧ m.appendSelf exGrow = some m' ∧ m'.mesh.triangles = [⟨0, 1, 2⟩, ⟨3, 4, 5⟩] := by
  refine ⟨_, _, rfl, ?_, ?_, rfl, ?_⟩ <;> decide +kernel

/-! ## C98: access from Python -/

/-- What holds of adding triangles from Python: with indices of vertices of the mesh the triangle is added at the end with its computed normal and a valid
mesh stays valid.
Missing for the full property: an error for other indices. -/
theorem C98_add_triangle_partial (normal : V3 (V3 K) → V3 K) (m : Mesh K) (hm : m.check = true) (ts : List (Tri K)) (hv : m.visit = some ts) (t : V3 Nat)
    (a b c : V3 K) (ha : m.vertices[t.x]? = some a) (hb : m.vertices[t.y]? = some b) (hc : m.vertices[t.z]? = some c) :
    ∃ m', pyAddTriangle normal m t = some m' ∧ m'.check = true ∧ m'.vertices = m.vertices ∧ m'.visit = some (ts ++ [⟨a, b, c, normal ⟨a, b, c⟩⟩]) := by
  have e := visit_extend hm [] t (normal ⟨a, b, c⟩) a b c (by simpa using ha) (by simpa using hb) (by simpa using hc)
  rw [List.append_nil] at e
  refine ⟨m.addTriangle t (normal ⟨a, b, c⟩), ?_, e.1, rfl, e.2 ts hv⟩
  unfold pyAddTriangle
  rw [ha, hb, hc]

/-- FALSE of the code: 'adding a triangle with an index that is no vertex is an error in Python'.  The memory behind the vertices is read. -/
theorem C98_add_triangle_false_of_code (normal : V3 (V3 K) → V3 K) (m : Mesh K) (t : V3 Nat) (h : m.vertices.length ≤ t.x ∨ m.vertices.length ≤ t.y ∨ m.vertices.length ≤ t.z) :
    pyAddTriangle normal m t = none := by
  unfold pyAddTriangle
  rcases h with h | h | h
  · rw [List.getElem?_eq_none h]
  · rw [List.getElem?_eq_none h]; split <;> simp_all
  · rw [List.getElem?_eq_none h]; split <;> simp_all

theorem pyNext_lt {m : Mesh K} {i : Nat} (h : i < m.triangles.length) : pyNext m i = (some (m.triangle i), i + 1) := by
  unfold pyNext; rw [if_neg (by omega)]

theorem pyNext_end {m : Mesh K} {i : Nat} (h : m.triangles.length ≤ i) : pyNext m i = (none, i) := by
  unfold pyNext; rw [if_pos h]

/-- Iterating over the triangles of a valid mesh that is not changed gives every triangle once, in their order. -/
theorem C98_iterate {S : Type _} (m : Mesh K) (ts : List (Tri K)) (hv : m.visit = some ts) (f : S → Tri K → S) (s : S) :
    pyLoop (fun m s t => (m, f s t)) (ts.length + 1) 0 m s = some (m, ts.foldl f s) := by
  obtain ⟨l1, l2⟩ := mapM_range_some _ _ _ hv
  have key : ∀ (n i : Nat) (s : S), i + n = ts.length → pyLoop (fun m s t => (m, f s t)) (n + 1) i m s = some (m, (ts.drop i).foldl f s) := by
    intro n
    induction n with
    | zero =>
      intro i s hi
      rw [pyLoop, pyNext_end (by omega), List.drop_eq_nil_of_le (by omega)]; rfl
    | succ n ih =>
      intro i s hi
      have hlt : i < ts.length := by omega
      rw [pyLoop, pyNext_lt (by omega), l2 i (by omega), List.getElem?_eq_getElem hlt]
      dsimp only
      rw [ih (i + 1) _ (by omega), List.drop_eq_getElem_cons hlt]; rfl
  have := key ts.length 0 s (by omega)
  rwa [List.drop_zero] at this

/-- Iterating while the body of the loop adds to the mesh: the body sees the triangles of the final mesh, each once and in their order (the added ones too). -/
theorem C98_iterate_growing (body : Mesh K → List (Tri K) → Tri K → Mesh K × List (Tri K))
    (hlog : ∀ m s t, (body m s t).2 = s ++ [t])
    (hgrow : ∀ m s t ts, m.visit = some ts → ∃ us, (body m s t).1.visit = some (ts ++ us))
    (fuel : Nat) (m m' : Mesh K) (ts s' : List (Tri K)) (hv : m.visit = some ts) (h : pyLoop body fuel 0 m [] = some (m', s')) :
    m'.visit = some s' := by
  have key : ∀ (fuel i : Nat) (m : Mesh K) (ts s : List (Tri K)), m.visit = some ts → i ≤ ts.length → s = ts.take i →
      pyLoop body fuel i m s = some (m', s') → m'.visit = some s' := by
    intro fuel
    induction fuel with
    | zero => intro i m ts s _ _ _ h; cases h
    | succ fuel ih =>
      intro i m ts s hv hi hs h
      obtain ⟨l1, l2⟩ := mapM_range_some _ _ _ hv
      rw [pyLoop] at h
      by_cases hlt : i < ts.length
      · rw [pyNext_lt (by omega), l2 i (by omega), List.getElem?_eq_getElem hlt] at h
        dsimp only at h
        obtain ⟨us, hus⟩ := hgrow m s ts[i] ts hv
        refine ih (i + 1) _ (ts ++ us) _ hus (by rw [List.length_append]; omega) ?_ h
        rw [hlog, hs, List.take_append_of_le_length (by omega), List.take_succ_eq_append_getElem hlt]
      · rw [pyNext_end (by omega)] at h
        dsimp only at h
        cases h
        rw [hv, hs, List.take_of_length_le (by omega)]
  exact key fuel 0 m ts [] hv (Nat.zero_le _) (by simp) h

/-- C98 is not empty: a loop that adds a triangle when it sees the first one sees both. -/
example : pyLoop (fun (m : Mesh ℚ) s t => (if s = [] then m.addTriangle ⟨0, 2, 1⟩ ⟨0, 0, -1⟩ else m, s ++ [t])) 5 0
    ⟨[⟨0, 0, 0⟩, ⟨1, 0, 0⟩, ⟨0, 1, 0⟩], [⟨0, 1, 2⟩], [⟨0, 0, 1⟩]⟩ [] =
    some (⟨[⟨0, 0, 0⟩, ⟨1, 0, 0⟩, ⟨0, 1, 0⟩], [⟨0, 1, 2⟩, ⟨0, 2, 1⟩], [⟨0, 0, 1⟩, ⟨0, 0, -1⟩]⟩,
      [⟨⟨0, 0, 0⟩, ⟨1, 0, 0⟩, ⟨0, 1, 0⟩, ⟨0, 0, 1⟩⟩, ⟨⟨0, 0, 0⟩, ⟨0, 1, 0⟩, ⟨1, 0, 0⟩, ⟨0, 0, -1⟩⟩]) := by decide +kernel

/-- The coordinates of a point by index in Python: 0, 1, 2 from the front, -1, -2, -3 from the back, an error for all other indices. -/
theorem C98_point_item (p : V3 K) (i : Int) :
    pyPointItem p 0 = some p.x ∧ pyPointItem p 1 = some p.y ∧ pyPointItem p 2 = some p.z ∧
    pyPointItem p (-1) = some p.z ∧ pyPointItem p (-2) = some p.y ∧ pyPointItem p (-3) = some p.x ∧
    ((i < -3 ∨ 2 < i) → pyPointItem p i = none) := by
  refine ⟨rfl, rfl, rfl, rfl, rfl, rfl, fun h => ?_⟩
  unfold pyPointItem
  rcases h with h | h
  · dsimp only; rw [if_pos (show i < 0 by omega), if_pos (by omega)]
  · dsimp only; rw [if_neg (show ¬ i < 0 by omega), if_pos (by omega)]

/-- What holds of the access to condition segments by index in Python: indices of the list give the segment, negative indices are an error.
Missing for the full property: an error for indices behind the end. -/
theorem C98_segment_item_partial {α : Type _} (l : List α) (i : Int) :
    (∀ n : Nat, ∀ a, l[n]? = some a → pySegmentItem l n = .value a) ∧ (i < 0 → pySegmentItem l i = .typeError) := by
  refine ⟨fun n a h => ?_, fun h => ?_⟩
  · unfold pySegmentItem
    rw [if_neg (by omega), Int.toNat_natCast, h]
  · unfold pySegmentItem
    rw [if_pos h]

/-- FALSE of the code: 'an index behind the last condition segment is an error in Python'.  It is undefined behaviour for every list. -/
theorem C98_segment_item_false_of_code {α : Type _} (l : List α) (n : Nat) (h : l.length ≤ n) : pySegmentItem l n = .ub := by
  unfold pySegmentItem
  rw [if_neg (by omega), Int.toNat_natCast, List.getElem?_eq_none h]

end QuESo.MView
