import Verif.Spec.MeshView
import Verif.Model.MeshUtilities
import Verif.Proofs.MeshInsert

/-! # Proofs about views and references -/
namespace QuESo.MView
variable {K : Type _} {α : Type _}

/-! ## Vectors -/

theorem reserve_data (v : Vec α) (n : Nat) : (v.reserve n).data = v.data := by
  unfold Vec.reserve; split <;> rfl

theorem push_data (g : Nat → Nat) (v : Vec α) (a : α) : (v.push g a).data = v.data ++ [a] := by
  unfold Vec.push; split <;> rfl

theorem reserve_cap (v : Vec α) (n : Nat) : n ≤ (v.reserve n).cap ∧ v.cap ≤ (v.reserve n).cap := by
  unfold Vec.reserve; split
  · exact ⟨le_refl _, by show v.cap ≤ n; omega⟩
  · exact ⟨by omega, le_refl _⟩

theorem reserve_same (v : Vec α) {n : Nat} (h : n ≤ v.cap) : v.reserve n = v := by
  unfold Vec.reserve; rw [if_neg (by omega)]

theorem push_same (g : Nat → Nat) (v : Vec α) (a : α) (h : v.data.length < v.cap) :
    v.push g a = { v with data := v.data ++ [a] } := by
  unfold Vec.push; rw [if_pos h]

theorem readSpan_self (v : Vec α) (i : Nat) : v.readSpan v.span i = v.data[i]? := by
  unfold Vec.readSpan Vec.span
  by_cases h : i < v.data.length
  · rw [if_pos ⟨rfl, h⟩]
  · rw [if_neg (fun e => h e.2), List.getElem?_eq_none (by omega)]

theorem swapPop_data (v : Vec α) (i : Nat) {w : Vec α} (h : v.swapPop i = some w) :
    w.block = v.block ∧ w.cap = v.cap ∧ ∃ a, v.data.getLast? = some a ∧ i < v.data.length ∧ w.data = (v.data.set i a).dropLast := by
  unfold Vec.swapPop at h
  cases e : v.data.getLast? with
  | none => rw [e] at h; cases h
  | some a =>
    rw [e] at h
    dsimp only at h
    by_cases hi : i < v.data.length
    · rw [if_pos hi] at h
      cases h
      exact ⟨rfl, rfl, a, rfl, hi, rfl⟩
    · rw [if_neg hi] at h; cases h

/-! ## The contents of a mesh -/

theorem call_mesh (g : Nat → Nat) (m : MMesh K) (c : Call K) : (m.call g c).map MMesh.mesh = after m.mesh c := by
  cases c with
  | reserve n => simp [MMesh.call, MMesh.mesh, after, reserve_data]
  | addVertex v => simp [MMesh.call, MMesh.mesh, after, push_data]
  | addTriangle t nrm => simp [MMesh.call, MMesh.mesh, after, push_data]
  | clear => simp [MMesh.call, MMesh.mesh, after, Vec.clear]
  | removeTriangle tid =>
    show Option.map MMesh.mesh (match m.triangles.swapPop tid, m.normals.swapPop tid with
      | some t, some n => some { m with triangles := t, normals := n } | _, _ => none) = m.mesh.removeTriangle tid
    unfold Mesh.removeTriangle Vec.swapPop
    show _ = match m.triangles.data.getLast?, m.normals.data.getLast? with
      | some t, some nrm =>
        if tid < m.triangles.data.length ∧ tid < m.normals.data.length then
          some { m.mesh with triangles := (m.triangles.data.set tid t).dropLast, normals := (m.normals.data.set tid nrm).dropLast }
        else none
      | _, _ => none
    cases m.triangles.data.getLast? with
    | none => rfl
    | some t =>
      cases m.normals.data.getLast? with
      | none => dsimp only; split <;> simp_all
      | some n =>
        dsimp only
        by_cases h1 : tid < m.triangles.data.length
        · by_cases h2 : tid < m.normals.data.length
          · rw [if_pos h1, if_pos h2, if_pos ⟨h1, h2⟩]; rfl
          · rw [if_pos h1, if_neg h2, if_neg (fun e => h2 e.2)]; rfl
        · rw [if_neg h1, if_neg (show ¬(tid < m.triangles.data.length ∧ tid < m.normals.data.length) from fun e => h1 e.1)]; rfl

theorem calls_mesh (g : Nat → Nat) (cs : List (Call K)) : ∀ m : MMesh K, (m.calls g cs).map MMesh.mesh = afterAll m.mesh cs := by
  induction cs with
  | nil => intro m; rfl
  | cons c cs ih =>
    intro m
    have e := call_mesh g m c
    unfold MMesh.calls afterAll
    rw [List.foldlM_cons, List.foldlM_cons, ← e]
    cases h : m.call g c with
    | none => rfl
    | some m' => exact ih m'

theorem after_lengths {m m' : Mesh K} (h : m.triangles.length = m.normals.length) (c : Call K) (e : after m c = some m') :
    m'.triangles.length = m'.normals.length := by
  cases c with
  | reserve n => cases e; exact h
  | addVertex v => cases e; exact h
  | addTriangle t nrm => cases e; simp [h]
  | clear => cases e; rfl
  | removeTriangle tid =>
    unfold after Mesh.removeTriangle at e
    cases e1 : m.triangles.getLast? with
    | none => rw [e1] at e; cases e
    | some t =>
      cases e2 : m.normals.getLast? with
      | none => rw [e1, e2] at e; cases e
      | some n =>
        rw [e1, e2] at e
        dsimp only at e
        split at e
        · cases e; simp [h]
        · cases e

theorem afterAll_lengths (cs : List (Call K)) : ∀ {m m' : Mesh K}, m.triangles.length = m.normals.length → afterAll m cs = some m' →
    m'.triangles.length = m'.normals.length := by
  induction cs with
  | nil => intro m m' h e; cases e; exact h
  | cons c cs ih =>
    intro m m' h e
    unfold afterAll at e
    rw [List.foldlM_cons] at e
    cases h1 : after m c with
    | none => rw [h1] at e; cases e
    | some m1 => rw [h1] at e; exact ih (after_lengths h c h1) e

/-! ## Views -/

theorem viewTriangle_self (m : MMesh K) (tid : Nat) : m.viewTriangle m.view tid = m.mesh.triangle tid := by
  unfold MMesh.viewTriangle MMesh.view Mesh.triangle
  rw [readSpan_self]; rfl

theorem viewVisit_eq (m : MMesh K) (is : List Nat) : m.viewVisit is = is.mapM m.mesh.triangle := by
  unfold MMesh.viewVisit
  congr 1
  funext i
  simp only [readSpan_self]
  unfold Mesh.triangle Mesh.corners
  show _ = match (match m.triangles.data[i]? with
    | none => none
    | some t => match m.vertices.data[t.x]?, m.vertices.data[t.y]?, m.vertices.data[t.z]? with
      | some a, some b, some c => some (⟨a, b, c⟩ : V3 (V3 K)) | _, _, _ => none), m.normals.data[i]? with
    | some c, some nrm => some (⟨c.x, c.y, c.z, nrm⟩ : Tri K) | _, _ => none
  cases m.triangles.data[i]? with
  | none => rfl
  | some t =>
    dsimp only
    cases m.vertices.data[t.x]? <;> cases m.vertices.data[t.y]? <;> cases m.vertices.data[t.z]? <;> cases m.normals.data[i]? <;> rfl

/-! ## Memory that stays in place -/

/-- The blocks and capacities are as before. -/
structure SameMemory (m m' : MMesh K) : Prop where
  v : m'.vertices.block = m.vertices.block ∧ m'.vertices.cap = m.vertices.cap
  t : m'.triangles.block = m.triangles.block ∧ m'.triangles.cap = m.triangles.cap
  n : m'.normals.block = m.normals.block ∧ m'.normals.cap = m.normals.cap

theorem push_memory (g : Nat → Nat) (v : Vec α) (a : α) (h : (v.data ++ [a]).length ≤ v.cap) :
    (v.push g a).block = v.block ∧ (v.push g a).cap = v.cap := by
  rw [push_same g v a (by rw [List.length_append, List.length_singleton] at h; omega)]
  exact ⟨rfl, rfl⟩

theorem call_memory (g : Nat → Nat) {m m' : MMesh K} {nv nt : Nat} (hl : m.mesh.triangles.length = m.mesh.normals.length)
    (hv : nv ≤ m.vertices.cap) (ht : nt ≤ m.triangles.cap) (hn : nt ≤ m.normals.cap) (c : Call K)
    (hr : ∀ n, c = .reserve n → n ≤ nt ∧ (n + 1) / 2 ≤ nv)
    (hw : ∀ m', after m.mesh c = some m' → m'.vertices.length ≤ nv ∧ m'.triangles.length ≤ nt) (e : m.call g c = some m') :
    SameMemory m m' := by
  have ha : after m.mesh c = some m'.mesh := by rw [← call_mesh g, e]; rfl
  obtain ⟨w1, w2⟩ := hw _ ha
  have w3 : m'.mesh.normals.length ≤ nt := by rw [← after_lengths hl c ha]; exact w2
  cases c with
  | reserve n =>
    cases e
    obtain ⟨r1, r2⟩ := hr n rfl
    constructor
    · show (m.vertices.reserve ((n + 1) / 2)).block = _ ∧ (m.vertices.reserve ((n + 1) / 2)).cap = _
      rw [reserve_same _ (by omega)]; exact ⟨rfl, rfl⟩
    · show (m.triangles.reserve n).block = _ ∧ (m.triangles.reserve n).cap = _
      rw [reserve_same _ (by omega)]; exact ⟨rfl, rfl⟩
    · show (m.normals.reserve n).block = _ ∧ (m.normals.reserve n).cap = _
      rw [reserve_same _ (by omega)]; exact ⟨rfl, rfl⟩
  | addVertex v =>
    cases e
    refine ⟨push_memory g _ _ ?_, ⟨rfl, rfl⟩, ⟨rfl, rfl⟩⟩
    have : (m.vertices.push g v).data.length ≤ nv := w1
    rw [push_data] at this; omega
  | addTriangle t nrm =>
    cases e
    refine ⟨⟨rfl, rfl⟩, push_memory g _ _ ?_, push_memory g _ _ ?_⟩
    · have : (m.triangles.push g t).data.length ≤ nt := w2
      rw [push_data] at this; omega
    · have : (m.normals.push g nrm).data.length ≤ nt := w3
      rw [push_data] at this; omega
  | clear => cases e; exact ⟨⟨rfl, rfl⟩, ⟨rfl, rfl⟩, ⟨rfl, rfl⟩⟩
  | removeTriangle tid =>
    change (match m.triangles.swapPop tid, m.normals.swapPop tid with
      | some t, some n => some ({ m with triangles := t, normals := n } : MMesh K) | _, _ => none) = some m' at e
    cases e1 : m.triangles.swapPop tid with
    | none => rw [e1] at e; cases e
    | some t =>
      cases e2 : m.normals.swapPop tid with
      | none => rw [e1, e2] at e; cases e
      | some n =>
        rw [e1, e2] at e
        cases e
        obtain ⟨a1, a2, _⟩ := swapPop_data _ _ e1
        obtain ⟨b1, b2, _⟩ := swapPop_data _ _ e2
        exact ⟨⟨rfl, rfl⟩, ⟨a1, a2⟩, ⟨b1, b2⟩⟩

theorem calls_memory (g : Nat → Nat) {nv nt : Nat} (cs : List (Call K)) : ∀ {m m' : MMesh K},
    m.mesh.triangles.length = m.mesh.normals.length → nv ≤ m.vertices.cap → nt ≤ m.triangles.cap → nt ≤ m.normals.cap →
    Within nv nt m.mesh cs → m.calls g cs = some m' → SameMemory m m' := by
  induction cs with
  | nil => intro m m' _ _ _ _ _ e; cases e; exact ⟨⟨rfl, rfl⟩, ⟨rfl, rfl⟩, ⟨rfl, rfl⟩⟩
  | cons c cs ih =>
    intro m m' hl hv ht hn hw e
    unfold MMesh.calls at e
    rw [List.foldlM_cons] at e
    cases h1 : m.call g c with
    | none => rw [h1] at e; cases e
    | some m1 =>
      rw [h1] at e
      have ha : after m.mesh c = some m1.mesh := by rw [← call_mesh g, h1]; rfl
      have s1 : SameMemory m m1 := call_memory g hl hv ht hn c hw.1 (fun m' hm' => ⟨(hw.2 m' hm').1, (hw.2 m' hm').2.1⟩) h1
      have s2 : SameMemory m1 m' := ih (after_lengths hl c ha) (by rw [s1.v.2]; exact hv) (by rw [s1.t.2]; exact ht)
        (by rw [s1.n.2]; exact hn) (hw.2 _ ha).2.2 e
      exact ⟨⟨s2.v.1.trans s1.v.1, s2.v.2.trans s1.v.2⟩, ⟨s2.t.1.trans s1.t.1, s2.t.2.trans s1.t.2⟩,
        ⟨s2.n.1.trans s1.n.1, s2.n.2.trans s1.n.2⟩⟩

theorem within_cons {nv nt : Nat} {m m1 : Mesh K} {c : Call K} {cs : List (Call K)} (hr : ∀ n, c = .reserve n → n ≤ nt ∧ (n + 1) / 2 ≤ nv)
    (h : after m c = some m1) (h1 : m1.vertices.length ≤ nv) (h2 : m1.triangles.length ≤ nt) (h3 : Within nv nt m1 cs) : Within nv nt m (c :: cs) :=
  ⟨hr, fun m' e => by rw [h] at e; cases e; exact ⟨h1, h2, h3⟩⟩

/-! ## Calling back -/

theorem eachTriangle_spec {S T : Type _} (get : Nat → Option T) (cb : S → T → S × Bool) :
    ∀ (is : List Nat) (ts : List T) (s : S), is.mapM get = some ts →
      ∃ k, k ≤ ts.length ∧ eachTriangle get cb is s = some ((ts.take k).foldl (fun s t => (cb s t).1) s) ∧
        (∀ j t, j + 1 < k → ts[j]? = some t → (cb ((ts.take j).foldl (fun s t => (cb s t).1) s) t).2 = false) ∧
        (k < ts.length → ∃ t, 0 < k ∧ ts[k - 1]? = some t ∧ (cb ((ts.take (k - 1)).foldl (fun s t => (cb s t).1) s) t).2 = true) := by
  intro is
  induction is with
  | nil =>
    intro ts s h
    rw [List.mapM_nil] at h; cases h
    exact ⟨0, le_refl _, rfl, fun j t hj => by omega, fun h => absurd h (Nat.lt_irrefl 0)⟩
  | cons i is ih =>
    intro ts s h
    rw [List.mapM_cons] at h
    cases hg : get i with
    | none => rw [hg] at h; cases h
    | some t =>
      cases hr : is.mapM get with
      | none => rw [hg, hr] at h; cases h
      | some r =>
        rw [hg, hr] at h
        cases h
        show ∃ k, k ≤ (t :: r).length ∧ _
        by_cases hb : (cb s t).2 = true
        · refine ⟨1, by simp, ?_, fun j t' hj => by omega, fun _ => ⟨t, by omega, rfl, hb⟩⟩
          rw [eachTriangle, hg]
          dsimp only
          rw [if_pos hb]; rfl
        · obtain ⟨k, k1, k2, k3, k4⟩ := ih r (cb s t).1 hr
          refine ⟨k + 1, by simp; exact k1, ?_, ?_, ?_⟩
          · rw [eachTriangle, hg]
            dsimp only
            rw [if_neg hb, k2]; rfl
          · intro j t' hj ht'
            cases j with
            | zero =>
              have : t = t' := by simpa using ht'
              subst this
              exact Bool.eq_false_iff.2 hb
            | succ j => exact k3 j t' (by omega) (by simpa using ht')
          · intro hk
            have hk' : k < r.length := by simpa using hk
            obtain ⟨t', h0, h1, h2⟩ := k4 hk'
            refine ⟨t', by omega, ?_, ?_⟩
            · obtain ⟨k', rfl⟩ : ∃ k', k = k' + 1 := ⟨k - 1, by omega⟩
              simpa using h1
            · obtain ⟨k', rfl⟩ : ∃ k', k = k' + 1 := ⟨k - 1, by omega⟩
              exact h2

/-! ## Other meshes -/

theorem foreign_view {F : Type _} (b : Foreign F K) (normal : V3 (V3 K) → V3 K) (f : F) :
    ∀ (is : List Nat) (ns : List (V3 K)), eachTriangle (b.corners f) (fun ns c => (ns ++ [normal c], false)) is ns =
      (is.mapM (b.corners f)).map (fun cs => ns ++ cs.map normal) := by
  intro is
  induction is with
  | nil => intro ns; rw [List.mapM_nil]; simp [eachTriangle]
  | cons i is ih =>
    intro ns
    rw [eachTriangle, List.mapM_cons]
    cases b.corners f i with
    | none => rfl
    | some c =>
      dsimp only
      rw [if_neg (by simp), ih]
      cases is.mapM (b.corners f) with
      | none => rfl
      | some cs => simp

/-! ## Triangle objects -/

theorem readProxy_spec {m : MMesh K} {tid : Nat} {t : Tri K} (h : m.mesh.triangle tid = some t) :
    ∃ p, m.proxy tid = some p ∧ m.readProxy p = some t := by
  unfold Mesh.triangle Mesh.corners at h
  change (match (match m.triangles.data[tid]? with
    | none => none
    | some t => match m.vertices.data[t.x]?, m.vertices.data[t.y]?, m.vertices.data[t.z]? with
      | some a, some b, some c => some (⟨a, b, c⟩ : V3 (V3 K)) | _, _, _ => none), m.normals.data[tid]? with
    | some c, some nrm => some (⟨c.x, c.y, c.z, nrm⟩ : Tri K) | _, _ => none) = some t at h
  cases ht : m.triangles.data[tid]? with
  | none => rw [ht] at h; cases h
  | some i =>
    rw [ht] at h
    dsimp only at h
    cases hx : m.vertices.data[i.x]? with
    | none => rw [hx] at h; cases h
    | some a =>
      cases hy : m.vertices.data[i.y]? with
      | none => rw [hx, hy] at h; cases h
      | some b =>
        cases hz : m.vertices.data[i.z]? with
        | none => rw [hx, hy, hz] at h; cases h
        | some c =>
          cases hn : m.normals.data[tid]? with
          | none => rw [hx, hy, hz, hn] at h; cases h
          | some nrm =>
            rw [hx, hy, hz, hn] at h
            cases h
            have lt : ∀ {β : Type _} {l : List β} {j : Nat} {a : β}, l[j]? = some a → j < l.length := fun {β l j a} e => (List.getElem?_eq_some_iff.1 e).1
            refine ⟨⟨(m.vertices.block, i.x), (m.vertices.block, i.y), (m.vertices.block, i.z), (m.normals.block, tid)⟩, ?_, ?_⟩
            · unfold MMesh.proxy
              rw [ht]
              dsimp only
              rw [if_pos ⟨lt hx, lt hy, lt hz, lt hn⟩]
            · unfold MMesh.readProxy Vec.readRef
              dsimp only
              rw [if_pos rfl, if_pos rfl, if_pos rfl, if_pos rfl, hx, hy, hz, hn]

/-- Reading an object later, if nothing was moved and the elements it refers to are the same. -/
theorem proxy_parts {m : MMesh K} {tid : Nat} {p : MMesh.Proxy} (h : m.proxy tid = some p) :
    ∃ i, m.triangles.data[tid]? = some i ∧ i.x < m.vertices.data.length ∧ i.y < m.vertices.data.length ∧ i.z < m.vertices.data.length ∧
      tid < m.normals.data.length ∧
      p = ⟨(m.vertices.block, i.x), (m.vertices.block, i.y), (m.vertices.block, i.z), (m.normals.block, tid)⟩ := by
  unfold MMesh.proxy at h
  cases ht : m.triangles.data[tid]? with
  | none => rw [ht] at h; cases h
  | some i =>
    rw [ht] at h
    dsimp only at h
    split at h
    · next hh => cases h; exact ⟨i, rfl, hh.1, hh.2.1, hh.2.2.1, hh.2.2.2, rfl⟩
    · cases h

theorem readProxy_later {m m' : MMesh K} (s : SameMemory m m') (ev : List (V3 K)) (en : List (V3 K))
    (hv : m'.vertices.data = m.vertices.data ++ ev) (hn : m'.normals.data = m.normals.data ++ en) {tid : Nat} {p : MMesh.Proxy}
    (h : m.proxy tid = some p) : m'.readProxy p = m.readProxy p := by
  obtain ⟨i, _, h1, h2, h3, h4, rfl⟩ := proxy_parts h
  unfold MMesh.readProxy Vec.readRef
  dsimp only
  rw [s.v.1, s.n.1]
  simp only [if_true]
  rw [hv, hn, List.getElem?_append_left h1, List.getElem?_append_left h2, List.getElem?_append_left h3, List.getElem?_append_left h4]

/-! ## Appending a mesh to itself -/

theorem appendVerticesSelf_spec (g : Nat → Nat) (src : List (V3 K)) : ∀ (n k : Nat) (v : Vec (V3 K)), k + n = src.length →
    v.data = src ++ src.take k → 2 * src.length ≤ v.cap →
    MMesh.appendVerticesSelf g ⟨v.block, src.length⟩ v (List.range' k n) = some ⟨v.block, v.cap, src ++ src⟩ := by
  intro n
  induction n with
  | zero =>
    intro k v hk hd hc
    rw [List.range'_zero, MMesh.appendVerticesSelf]
    rw [List.take_of_length_le (by omega)] at hd
    rw [← hd]
  | succ n ih =>
    intro k v hk hd hc
    rw [List.range'_succ, MMesh.appendVerticesSelf]
    have hlt : k < src.length := by omega
    have hr : v.readSpan ⟨v.block, src.length⟩ k = some src[k] := by
      unfold Vec.readSpan
      rw [if_pos ⟨rfl, hlt⟩, hd, List.getElem?_append_left hlt, List.getElem?_eq_getElem hlt]
    rw [hr]
    dsimp only
    have hl : v.data.length < v.cap := by
      rw [hd, List.length_append, List.length_take]; omega
    rw [push_same g v _ hl]
    refine ih (k + 1) { v with data := v.data ++ [src[k]] } (by omega) ?_ hc
    show v.data ++ [src[k]] = _
    rw [hd, List.append_assoc, List.take_succ_eq_append_getElem hlt]

theorem appendTrianglesSelf_spec (g : Nat → Nat) (o : Nat) (vs : Vec (V3 K)) (st : List (V3 Nat)) (sn : List (V3 K)) (hl : st.length = sn.length) :
    ∀ (n k : Nat) (t : Vec (V3 Nat)) (w : Vec (V3 K)), k + n = st.length →
    t.data = st ++ (st.take k).map (fun i => ⟨i.x + o, i.y + o, i.z + o⟩) → w.data = sn ++ sn.take k →
    2 * st.length ≤ t.cap → 2 * st.length ≤ w.cap →
    ∃ m', MMesh.appendTrianglesSelf g o ⟨t.block, st.length⟩ ⟨w.block, st.length⟩ ⟨vs, t, w⟩ (List.range' k n) = some m' ∧
      m'.mesh = ⟨vs.data, st ++ st.map (fun i => ⟨i.x + o, i.y + o, i.z + o⟩), sn ++ sn⟩ := by
  intro n
  induction n with
  | zero =>
    intro k t w hk ht hw _ _
    rw [List.range'_zero, MMesh.appendTrianglesSelf]
    rw [List.take_of_length_le (by omega)] at ht hw
    exact ⟨_, rfl, by rw [← ht, ← hw]; rfl⟩
  | succ n ih =>
    intro k t w hk ht hw ct cw
    rw [List.range'_succ, MMesh.appendTrianglesSelf]
    have hlt : k < st.length := by omega
    have hlt' : k < sn.length := by omega
    have hr : t.readSpan ⟨t.block, st.length⟩ k = some st[k] := by
      unfold Vec.readSpan
      rw [if_pos ⟨rfl, hlt⟩, ht, List.getElem?_append_left hlt, List.getElem?_eq_getElem hlt]
    have hr' : w.readSpan ⟨w.block, st.length⟩ k = some sn[k] := by
      unfold Vec.readSpan
      rw [if_pos ⟨rfl, hlt⟩, hw, List.getElem?_append_left hlt', List.getElem?_eq_getElem hlt']
    rw [hr, hr']
    dsimp only
    have h1 : t.data.length < t.cap := by
      rw [ht, List.length_append, List.length_map, List.length_take]; omega
    have h2 : w.data.length < w.cap := by
      rw [hw, List.length_append, List.length_take]; omega
    rw [push_same g t _ h1, push_same g w _ h2]
    refine ih (k + 1) { t with data := t.data ++ [⟨st[k].x + o, st[k].y + o, st[k].z + o⟩] } { w with data := w.data ++ [sn[k]] } (by omega) ?_ ?_ ct cw
    · show t.data ++ _ = _
      rw [ht, List.append_assoc, List.take_succ_eq_append_getElem hlt, List.map_append]; rfl
    · show w.data ++ [sn[k]] = _
      rw [hw, List.append_assoc, List.take_succ_eq_append_getElem hlt']

end QuESo.MView
