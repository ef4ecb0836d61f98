import Verif.Model.AABBTree
import Verif.Spec.Box
import Mathlib.Data.List.Perm.Basic
import Mathlib.Data.List.Nodup
import Mathlib.Logic.Function.Basic
import Mathlib.Tactic.Linarith

/-!
# The array of nodes represents a tree

`T` is a binary tree whose nodes carry array indices; `Rep` says that the array represents it.  A path from a
node to the root is a list of `Frame`s.
-/
namespace QuESo.AABBTree
open QuESo.AABB
variable {K : Type _} [Field K] [LinearOrder K]

inductive T (K : Type _)
  | leaf (i : Nat) (b : Box K)
  | node (i : Nat) (b : Box K) (h : Int) (l r : T K)

namespace T
def idx : T K → Nat
  | leaf i _ => i
  | node i _ _ _ _ => i
def box : T K → Box K
  | leaf _ b => b
  | node _ b _ _ _ => b
def height : T K → Int
  | leaf _ _ => 0
  | node _ _ h _ _ => h
def idxs : T K → List Nat
  | leaf i _ => [i]
  | node i _ _ l r => i :: (l.idxs ++ r.idxs)
def leaves : T K → List (Nat × Box K)
  | leaf i b => [(i, b)]
  | node _ _ _ l r => l.leaves ++ r.leaves
/-- Boxes and heights are those of the children. -/
def Wf : T K → Prop
  | leaf _ _ => True
  | node _ b h l r => b = merge l.box r.box ∧ h = 1 + max l.height r.height ∧ l.Wf ∧ r.Wf
end T

/-- The memory of the tree. -/
def L (t : Tree K) : Nat → Option (Node K) := fun i => t.nodes[i]?

/-- The array represents the tree below a node with the given parent. -/
def Rep (M : Nat → Option (Node K)) (par : Nat) : T K → Prop
  | .leaf i b => ∃ n, M i = some n ∧ n.box = b ∧ n.parent = par ∧ n.left = nullNode ∧ n.height = 0
  | .node i b h l r =>
    (∃ n, M i = some n ∧ n.box = b ∧ n.parent = par ∧ n.left = l.idx ∧ n.right = r.idx ∧ n.height = h) ∧
      Rep M i l ∧ Rep M i r

/-- One step from a child to its parent: the child is the left (right) one, the other child is given. -/
inductive Frame (K : Type _)
  | inL (i : Nat) (b : Box K) (h : Int) (r : T K)
  | inR (i : Nat) (b : Box K) (h : Int) (l : T K)

namespace Frame
def idx : Frame K → Nat
  | inL i _ _ _ => i
  | inR i _ _ _ => i
def sib : Frame K → T K
  | inL _ _ _ r => r
  | inR _ _ _ l => l
def idxs (f : Frame K) : List Nat := f.idx :: f.sib.idxs
def fill (x : T K) : Frame K → T K
  | inL i b h r => .node i b h x r
  | inR i b h l => .node i b h l x
end Frame

def pidx : List (Frame K) → Nat
  | [] => nullNode
  | f :: _ => f.idx

def RepF (M : Nat → Option (Node K)) (child par : Nat) : Frame K → Prop
  | .inL i b h r =>
    (∃ n, M i = some n ∧ n.box = b ∧ n.parent = par ∧ n.left = child ∧ n.right = r.idx ∧ n.height = h) ∧ Rep M i r
  | .inR i b h l =>
    (∃ n, M i = some n ∧ n.box = b ∧ n.parent = par ∧ n.left = l.idx ∧ n.right = child ∧ n.height = h) ∧ Rep M i l

def RepC (M : Nat → Option (Node K)) : Nat → List (Frame K) → Prop
  | _, [] => True
  | child, f :: rest => RepF M child (pidx rest) f ∧ RepC M f.idx rest

def idxsC (c : List (Frame K)) : List Nat := c.flatMap Frame.idxs
def leavesC (c : List (Frame K)) : List (Nat × Box K) := c.flatMap fun f => f.sib.leaves
def WfC (c : List (Frame K)) : Prop := ∀ f ∈ c, f.sib.Wf

/-- The root index of the tree with the given path. -/
def top (i : Nat) : List (Frame K) → Nat
  | [] => i
  | f :: rest => top f.idx rest

/-! ## Frame lemmas -/

omit [Field K] [LinearOrder K] in
theorem idx_mem (x : T K) : x.idx ∈ x.idxs := by cases x <;> simp [T.idx, T.idxs]

omit [Field K] [LinearOrder K] in
theorem rep_congr {M M' : Nat → Option (Node K)} {x : T K} {par : Nat} (h : Rep M par x) (hM : ∀ i ∈ x.idxs, M' i = M i) :
    Rep M' par x := by
  induction x generalizing par with
  | leaf i b => simpa only [Rep, hM i (by simp [T.idxs])] using h
  | node i b hh l r ihl ihr =>
    obtain ⟨h1, h2, h3⟩ := h
    refine ⟨?_, ihl h2 ?_, ihr h3 ?_⟩
    · rw [hM i (by simp [T.idxs])]; exact h1
    · intro j hj; exact hM j (by simp [T.idxs, hj])
    · intro j hj; exact hM j (by simp [T.idxs, hj])

omit [Field K] [LinearOrder K] in
/-- The parent pointer of the root of a subtree is changed. -/
theorem rep_reparent {M M' : Nat → Option (Node K)} {x : T K} {par par' : Nat} (h : Rep M par x) (hn : x.idxs.Nodup)
    (hM : ∀ i ∈ x.idxs, i ≠ x.idx → M' i = M i) (hroot : ∀ n, M x.idx = some n → M' x.idx = some { n with parent := par' }) :
    Rep M' par' x := by
  cases x with
  | leaf i b =>
    obtain ⟨n, h1, h2, h3, h4, h5⟩ := h
    exact ⟨_, hroot n h1, h2, rfl, h4, h5⟩
  | node i b hh l r =>
    obtain ⟨⟨n, h1, h2, h3, h4, h5, h6⟩, hl, hr⟩ := h
    simp only [T.idxs, List.nodup_cons, List.mem_append, not_or] at hn
    refine ⟨⟨_, hroot n h1, h2, rfl, h4, h5, h6⟩, rep_congr hl ?_, rep_congr hr ?_⟩
    · intro j hj
      exact hM j (by simp [T.idxs, hj]) (fun e => hn.1.1 (by simp only [T.idx] at e; exact e ▸ hj))
    · intro j hj
      exact hM j (by simp [T.idxs, hj]) (fun e => hn.1.2 (by simp only [T.idx] at e; exact e ▸ hj))

omit [Field K] [LinearOrder K] in
theorem repF_congr {M M' : Nat → Option (Node K)} {f : Frame K} {ch par : Nat} (h : RepF M ch par f)
    (hM : ∀ i ∈ f.idxs, M' i = M i) : RepF M' ch par f := by
  cases f with
  | inL i b hh r =>
    obtain ⟨h1, h2⟩ := h
    refine ⟨?_, rep_congr h2 (fun j hj => hM j (by simp [Frame.idxs, Frame.sib, hj]))⟩
    rw [hM i (by simp [Frame.idxs, Frame.idx])]; exact h1
  | inR i b hh r =>
    obtain ⟨h1, h2⟩ := h
    refine ⟨?_, rep_congr h2 (fun j hj => hM j (by simp [Frame.idxs, Frame.sib, hj]))⟩
    rw [hM i (by simp [Frame.idxs, Frame.idx])]; exact h1

omit [Field K] [LinearOrder K] in
theorem repC_congr {M M' : Nat → Option (Node K)} {c : List (Frame K)} {ch : Nat} (h : RepC M ch c)
    (hM : ∀ i ∈ idxsC c, M' i = M i) : RepC M' ch c := by
  induction c generalizing ch with
  | nil => trivial
  | cons f rest ih =>
    obtain ⟨h1, h2⟩ := h
    refine ⟨repF_congr h1 (fun j hj => hM j ?_), ih h2 (fun j hj => hM j ?_)⟩
    · simp only [idxsC, List.flatMap_cons, List.mem_append]; exact Or.inl hj
    · simp only [idxsC, List.flatMap_cons, List.mem_append]; exact Or.inr hj

omit [Field K] [LinearOrder K] in
theorem rep_some {M : Nat → Option (Node K)} {par : Nat} {x : T K} (h : Rep M par x) :
    ∃ n, M x.idx = some n ∧ n.box = x.box ∧ n.parent = par ∧ n.height = x.height := by
  cases x with
  | leaf i b => obtain ⟨n, h1, h2, h3, h4, h5⟩ := h; exact ⟨n, h1, h2, h3, h5⟩
  | node i b hh l r => obtain ⟨⟨n, h1, h2, h3, h4, h5, h6⟩, -⟩ := h; exact ⟨n, h1, h2, h3, h6⟩

omit [Field K] [LinearOrder K] in
theorem rep_all_some {M : Nat → Option (Node K)} {par : Nat} {x : T K} (h : Rep M par x) : ∀ i ∈ x.idxs, M i ≠ none := by
  induction x generalizing par with
  | leaf i b =>
    obtain ⟨n, h1, -⟩ := h
    intro j hj; simp only [T.idxs, List.mem_singleton] at hj; subst hj; simp [h1]
  | node i b hh l r ihl ihr =>
    obtain ⟨⟨n, h1, -⟩, hl, hr⟩ := h
    intro j hj
    simp only [T.idxs, List.mem_cons, List.mem_append] at hj
    rcases hj with rfl | hj | hj
    · simp [h1]
    · exact ihl hl j hj
    · exact ihr hr j hj

/-! ## Running single operations -/

/-- The tree with one node replaced. -/
def Tree.put (t : Tree K) (i : Nat) (n : Node K) : Tree K := { t with nodes := t.nodes.set i n }

omit [Field K] [LinearOrder K] in
theorem get_ok {t : Tree K} {i : Nat} {n : Node K} (h : L t i = some n) : t.get i = .ok n := by
  simp only [L] at h
  simp only [Tree.get, h]

omit [Field K] [LinearOrder K] in
theorem upd_ok {t : Tree K} {i : Nat} {n : Node K} (h : L t i = some n) (f : Node K → Node K) : t.upd i f = .ok (t.put i (f n)) := by
  simp only [L] at h
  simp only [Tree.upd, h, Tree.put]

omit [Field K] [LinearOrder K] in
theorem L_put {t : Tree K} {i : Nat} {n : Node K} (h : L t i = some n) (m : Node K) (j : Nat) :
    L (t.put i m) j = if j = i then some m else L t j := by
  have hi : i < t.nodes.length := (List.getElem?_eq_some_iff.1 h).1
  simp only [L, Tree.put, List.getElem?_set]
  by_cases hj : j = i
  · subst hj; simp [hi]
  · rw [if_neg (Ne.symm hj), if_neg hj]

/-- Nothing but links, boxes and heights of nodes, and the root, has changed. -/
structure Same (t t' : Tree K) : Prop where
  free : t'.freeList = t.freeList
  count : t'.nodeCount = t.nodeCount
  cap : t'.nodeCapacity = t.nodeCapacity
  map : t'.particleMap = t.particleMap
  len : t'.nodes.length = t.nodes.length
  fixed : ∀ j, (L t' j).map (fun n => (n.next, n.particle)) = (L t j).map (fun n => (n.next, n.particle))

omit [Field K] [LinearOrder K] in
theorem Same.refl (t : Tree K) : Same t t := ⟨rfl, rfl, rfl, rfl, rfl, fun _ => rfl⟩

omit [Field K] [LinearOrder K] in
theorem Same.trans {t t' t'' : Tree K} (h : Same t t') (h' : Same t' t'') : Same t t'' :=
  ⟨h'.free.trans h.free, h'.count.trans h.count, h'.cap.trans h.cap, h'.map.trans h.map, h'.len.trans h.len,
    fun j => (h'.fixed j).trans (h.fixed j)⟩

omit [Field K] [LinearOrder K] in
theorem same_put {t : Tree K} {i : Nat} {n m : Node K} (h : L t i = some n) (h1 : m.next = n.next) (h2 : m.particle = n.particle) :
    Same t (t.put i m) := by
  refine ⟨rfl, rfl, rfl, rfl, by simp [Tree.put], fun j => ?_⟩
  rw [L_put h]
  split_ifs with e
  · subst e; simp [h, h1, h2]
  · rfl


/-! ## Rotations -/

omit [Field K] [LinearOrder K] in
/-- The three updates that lift a child above its parent. -/
theorem replaceChild_spec {t : Tree K} {c : List (Frame K)} {i new : Nat} (hc : RepC (L t) i c)
    (hn : (idxsC c).Nodup) (hi : i ∉ idxsC c) (hnull : nullNode ∉ idxsC c) :
    ∃ t', t.replaceChild (pidx c) i new = .ok t' ∧ RepC (L t') new c ∧ Same t t' ∧
      (c = [] → t'.root = new) ∧ (c ≠ [] → t'.root = t.root) ∧ ∀ j, j ∉ idxsC c → L t' j = L t j := by
  cases c with
  | nil =>
    exact ⟨{ t with root := new }, by simp [Tree.replaceChild, pidx], trivial, ⟨rfl, rfl, rfl, rfl, rfl, fun _ => rfl⟩,
      fun _ => rfl, fun h => absurd rfl h, fun j _ => rfl⟩
  | cons f rest =>
    have hf : f.idx ∈ idxsC (f :: rest) := by simp [idxsC, Frame.idxs]
    have hne : f.idx ≠ nullNode := fun e => hnull (e ▸ hf)
    simp only [idxsC, List.flatMap_cons] at hn hi
    rw [List.nodup_append] at hn
    obtain ⟨hnf, -, hdis⟩ := hn
    simp only [Frame.idxs, List.nodup_cons] at hnf
    obtain ⟨hF, hR⟩ := hc
    -- the new node of the parent
    have key : ∀ (n m : Node K), L t f.idx = some n → m.next = n.next → m.particle = n.particle →
        t.replaceChild f.idx i new = .ok (t.put f.idx m) → RepF (L (t.put f.idx m)) new (pidx rest) f →
        ∃ t', t.replaceChild f.idx i new = .ok t' ∧ RepC (L t') new (f :: rest) ∧ Same t t' ∧
          (f :: rest = [] → t'.root = new) ∧ (f :: rest ≠ [] → t'.root = t.root) ∧
          ∀ j, j ∉ idxsC (f :: rest) → L t' j = L t j := by
      intro n m h1 h2 h3 h4 h5
      refine ⟨_, h4, ⟨h5, repC_congr hR ?_⟩, same_put h1 h2 h3, fun e => (by simp at e), fun _ => rfl, ?_⟩
      · intro j hj
        rw [L_put h1, if_neg]
        rintro rfl
        exact hdis _ (by simp [Frame.idxs]) _ hj rfl
      · intro j hj
        rw [L_put h1, if_neg]
        rintro rfl
        exact hj hf
    cases f with
    | inL q b hh r =>
      obtain ⟨⟨n, h1, h2, h3, h4, h5, h6⟩, hr⟩ := hF
      refine key n { n with left := new } h1 rfl rfl ?_ ⟨⟨{ n with left := new }, by simp [L_put h1, Frame.idx], h2, h3, rfl, h5, h6⟩, rep_congr hr ?_⟩
      · clear key
        simp only [Frame.idx] at hne ⊢
        simp only [Tree.replaceChild, ne_eq, hne, not_false_eq_true, if_true, get_ok h1, h4, upd_ok h1]
      · intro j hj
        simp only [Frame.idx] at hnf ⊢
        rw [L_put h1, if_neg]
        rintro rfl
        exact hnf.1 hj
    | inR q b hh l =>
      obtain ⟨⟨n, h1, h2, h3, h4, h5, h6⟩, hr⟩ := hF
      have hl : n.left ≠ i := by
        rw [h4]
        rintro e
        exact hi (by simp [Frame.idxs, Frame.sib, ← e, idx_mem])
      refine key n { n with right := new } h1 rfl rfl ?_ ⟨⟨{ n with right := new }, by simp [L_put h1, Frame.idx], h2, h3, h4, rfl, h6⟩, rep_congr hr ?_⟩
      · clear key
        simp only [Frame.idx] at hne ⊢
        simp only [Tree.replaceChild, ne_eq, hne, not_false_eq_true, if_true, get_ok h1, hl, if_false, upd_ok h1]
      · intro j hj
        simp only [Frame.idx] at hnf ⊢
        rw [L_put h1, if_neg]
        rintro rfl
        exact hnf.1 hj

omit [Field K] [LinearOrder K] in
/-- Five updates of three different nodes in the order of the rotations. -/
theorem run5 {t : Tree K} {a b c : Nat} {na nb nc : Node K} (ha : L t a = some na) (hb : L t b = some nb) (hc : L t c = some nc)
    (hab : a ≠ b) (hac : a ≠ c) (hbc : b ≠ c) (f1 f2 f3 f4 f5 : Node K → Node K)
    (p1 : ∀ n, (f1 n).next = n.next ∧ (f1 n).particle = n.particle) (p2 : ∀ n, (f2 n).next = n.next ∧ (f2 n).particle = n.particle)
    (p3 : ∀ n, (f3 n).next = n.next ∧ (f3 n).particle = n.particle) (p4 : ∀ n, (f4 n).next = n.next ∧ (f4 n).particle = n.particle)
    (p5 : ∀ n, (f5 n).next = n.next ∧ (f5 n).particle = n.particle) :
    ∃ t', (do let t ← t.upd a f1; let t ← t.upd b f2; let t ← t.upd c f3; let t ← t.upd b f4; let t ← t.upd a f5; return (t, a)) =
        (.ok (t', a) : Except Fault (Tree K × Nat)) ∧ Same t t' ∧ t'.root = t.root ∧
      L t' a = some (f5 (f1 na)) ∧ L t' b = some (f4 (f2 nb)) ∧ L t' c = some (f3 nc) ∧
      ∀ j, j ≠ a → j ≠ b → j ≠ c → L t' j = L t j := by
  have s1 := upd_ok ha f1
  have b1 : L (t.put a (f1 na)) b = some nb := by rw [L_put ha, if_neg hab.symm, hb]
  have a1 : L (t.put a (f1 na)) a = some (f1 na) := by rw [L_put ha, if_pos rfl]
  have c1 : L (t.put a (f1 na)) c = some nc := by rw [L_put ha, if_neg hac.symm, hc]
  have e1 : ∀ j, j ≠ a → L (t.put a (f1 na)) j = L t j := fun j h => by rw [L_put ha, if_neg h]
  have S1 := same_put ha (p1 na).1 (p1 na).2
  have r1 : (t.put a (f1 na)).root = t.root := rfl
  generalize t.put a (f1 na) = t1 at *
  have s2 := upd_ok b1 f2
  have a2 : L (t1.put b (f2 nb)) a = some (f1 na) := by rw [L_put b1, if_neg hab, a1]
  have b2 : L (t1.put b (f2 nb)) b = some (f2 nb) := by rw [L_put b1, if_pos rfl]
  have c2 : L (t1.put b (f2 nb)) c = some nc := by rw [L_put b1, if_neg hbc.symm, c1]
  have e2 : ∀ j, j ≠ b → L (t1.put b (f2 nb)) j = L t1 j := fun j h => by rw [L_put b1, if_neg h]
  have S2 := same_put b1 (p2 nb).1 (p2 nb).2
  have r2 : (t1.put b (f2 nb)).root = t1.root := rfl
  generalize t1.put b (f2 nb) = t2 at *
  have s3 := upd_ok c2 f3
  have a3 : L (t2.put c (f3 nc)) a = some (f1 na) := by rw [L_put c2, if_neg hac, a2]
  have b3 : L (t2.put c (f3 nc)) b = some (f2 nb) := by rw [L_put c2, if_neg hbc, b2]
  have c3 : L (t2.put c (f3 nc)) c = some (f3 nc) := by rw [L_put c2, if_pos rfl]
  have e3 : ∀ j, j ≠ c → L (t2.put c (f3 nc)) j = L t2 j := fun j h => by rw [L_put c2, if_neg h]
  have S3 := same_put c2 (p3 nc).1 (p3 nc).2
  have r3 : (t2.put c (f3 nc)).root = t2.root := rfl
  generalize t2.put c (f3 nc) = t3 at *
  have s4 := upd_ok b3 f4
  have a4 : L (t3.put b (f4 (f2 nb))) a = some (f1 na) := by rw [L_put b3, if_neg hab, a3]
  have b4 : L (t3.put b (f4 (f2 nb))) b = some (f4 (f2 nb)) := by rw [L_put b3, if_pos rfl]
  have c4 : L (t3.put b (f4 (f2 nb))) c = some (f3 nc) := by rw [L_put b3, if_neg hbc.symm, c3]
  have e4 : ∀ j, j ≠ b → L (t3.put b (f4 (f2 nb))) j = L t3 j := fun j h => by rw [L_put b3, if_neg h]
  have S4 := same_put b3 (p4 (f2 nb)).1 (p4 (f2 nb)).2
  have r4 : (t3.put b (f4 (f2 nb))).root = t3.root := rfl
  generalize t3.put b (f4 (f2 nb)) = t4 at *
  have s5 := upd_ok a4 f5
  refine ⟨t4.put a (f5 (f1 na)), ?_, (S1.trans S2).trans ((S3.trans S4).trans (same_put a4 (p5 _).1 (p5 _).2)), ?_, ?_, ?_, ?_, ?_⟩
  · simp only [s1, s2, s3, s4, s5, bind, Except.bind, pure, Except.pure]
  · show t4.root = t.root
    rw [r4, r3, r2, r1]
  · rw [L_put a4, if_pos rfl]
  · rw [L_put a4, if_neg hab.symm, b4]
  · rw [L_put a4, if_neg hac.symm, c4]
  · intro j h1 h2 h3
    rw [L_put a4, if_neg h1, e4 j h2, e3 j h3, e2 j h2, e1 j h1]

omit [Field K] [LinearOrder K] in
/-- The lifting part of a rotation: `up` (with first child `node`) takes the place of `node`. -/
theorem lift_spec {t : Tree K} {c : List (Frame K)} {node up : Nat} {nn nu : Node K} (hc : RepC (L t) node c)
    (hn : (idxsC c).Nodup) (hi : node ∉ idxsC c) (hu : up ∉ idxsC c) (hne : node ≠ up) (hnull : nullNode ∉ idxsC c)
    (h1 : L t node = some nn) (h2 : L t up = some nu) (hp : nn.parent = pidx c) :
    ∃ t1 t2 t', t.upd up (fun m => { m with left := node, parent := nn.parent }) = .ok t1 ∧
      t1.upd node (fun m => { m with parent := up }) = .ok t2 ∧ t2.replaceChild nn.parent node up = .ok t' ∧
      RepC (L t') up c ∧ Same t t' ∧ (c = [] → t'.root = up) ∧ (c ≠ [] → t'.root = t.root) ∧
      L t' up = some { nu with left := node, parent := nn.parent } ∧ L t' node = some { nn with parent := up } ∧
      ∀ j, j ∉ idxsC c → j ≠ node → j ≠ up → L t' j = L t j := by
  set m1 : Node K := { nu with left := node, parent := nn.parent } with hm1
  set m2 : Node K := { nn with parent := up } with hm2
  have hN : L (t.put up m1) node = some nn := by rw [L_put h2, if_neg hne, h1]
  have hL : ∀ j, L ((t.put up m1).put node m2) j = if j = node then some m2 else if j = up then some m1 else L t j := by
    intro j; rw [L_put hN, L_put h2]
  have hc2 : RepC (L ((t.put up m1).put node m2)) node c := by
    refine repC_congr hc fun j hj => ?_
    have e1 : j ≠ node := by rintro rfl; exact hi hj
    have e2 : j ≠ up := by rintro rfl; exact hu hj
    rw [hL, if_neg e1, if_neg e2]
  obtain ⟨t', g1, g2, g3, g4, g5, g6⟩ := replaceChild_spec (new := up) hc2 hn hi hnull
  refine ⟨_, _, t', upd_ok h2 _, upd_ok hN _, by rw [hp]; exact g1, g2, ?_, g4, fun h => (g5 h).trans rfl, ?_, ?_, ?_⟩
  · exact ((same_put (m := m1) h2 rfl rfl).trans (same_put (m := m2) hN rfl rfl)).trans g3
  · rw [g6 up hu, hL, if_neg (Ne.symm hne), if_pos rfl]
  · rw [g6 node hi, hL, if_pos rfl]
  · intro j a b d
    rw [g6 j a, hL, if_neg b, if_neg d]

/-- Everything a zipper position needs: the tree `x` at the path `c`. -/
structure Zip (t : Tree K) (x : T K) (c : List (Frame K)) : Prop where
  rep : Rep (L t) (pidx c) x
  repC : RepC (L t) x.idx c
  nodup : (x.idxs ++ idxsC c).Nodup
  null : nullNode ∉ x.idxs ++ idxsC c
  root : t.root = top x.idx c

/-- The outcome of an operation at the same path. -/
structure Step (t t' : Tree K) (x x' : T K) (c : List (Frame K)) : Prop where
  zip : Zip t' x' c
  same : Same t t'
  idxs : x'.idxs.Perm x.idxs
  leaves : x'.leaves.Perm x.leaves
  frame : ∀ j, j ∉ x.idxs ++ idxsC c → L t' j = L t j

omit [Field K] [LinearOrder K] in
theorem step_of {t t' : Tree K} {x x' : T K} {c : List (Frame K)} (hz : Zip t x c) (h1 : Rep (L t') (pidx c) x')
    (h2 : RepC (L t') x'.idx c) (h3 : c = [] → t'.root = x'.idx) (h4 : c ≠ [] → t'.root = t.root) (h5 : Same t t')
    (h6 : x'.idxs.Perm x.idxs) (h7 : x'.leaves.Perm x.leaves) (h8 : ∀ j, j ∉ x.idxs ++ idxsC c → L t' j = L t j) :
    Step t t' x x' c := by
  refine ⟨⟨h1, h2, ((h6.append_right _).nodup_iff).2 hz.nodup, fun h => hz.null (((h6.append_right _).mem_iff).1 h), ?_⟩, h5, h6, h7, h8⟩
  cases c with
  | nil => exact h3 rfl
  | cons f rest => rw [h4 (by simp), hz.root]; rfl

omit [Field K] in
theorem merge_comm (a b : Box K) : merge a b = merge b a := by
  simp only [merge, min_comm, max_comm]

theorem rotateRight_spec {t : Tree K} {c : List (Frame K)} {i ir : Nat} {b br : Box K} {h hr : Int} {l rl rr : T K}
    (hz : Zip t (.node i b h l (.node ir br hr rl rr)) c) (wl : l.Wf) (wrl : rl.Wf) (wrr : rr.Wf) :
    ∃ t' i' b' h' l' r', t.rotateRight i l.idx ir = .ok (t', i') ∧ l'.Wf ∧ r'.Wf ∧
      Step t t' (.node i b h l (.node ir br hr rl rr)) (.node i' b' h' l' r') c := by
  obtain ⟨⟨⟨nn, n1, n2, n3, n4, n5, n6⟩, hl, ⟨nu, u1, u2, u3, u4, u5, u6⟩, hrl, hrr⟩, hC, hnd, hnull, hroot⟩ := id hz
  simp only [T.idx] at hC
  have hnd' := hnd
  simp only [T.idxs, List.cons_append, List.append_assoc, List.nodup_cons, List.nodup_append, List.mem_append,
    List.mem_cons, not_or] at hnd'
  simp only [T.idxs, List.cons_append, List.append_assoc, List.mem_append, List.mem_cons, not_or] at hnull
  obtain ⟨⟨d1, d2, d3, d4, d5⟩, dl, ⟨⟨e1, e2, e3⟩, drl, ⟨drr, dC, k1⟩, k2⟩, k3⟩ := hnd'
  have hlC : ∀ j ∈ l.idxs, j ≠ i ∧ j ≠ ir ∧ j ∉ rl.idxs ∧ j ∉ rr.idxs ∧ j ∉ idxsC c := fun j hj =>
    ⟨fun e => d1 (e ▸ hj), k3 j hj ir (Or.inl rfl), fun e => k3 j hj j (Or.inr (Or.inl e)) rfl,
      fun e => k3 j hj j (Or.inr (Or.inr (Or.inl e))) rfl, fun e => k3 j hj j (Or.inr (Or.inr (Or.inr e))) rfl⟩
  have hrlC : ∀ j ∈ rl.idxs, j ≠ i ∧ j ≠ ir ∧ j ∉ rr.idxs ∧ j ∉ idxsC c := fun j hj =>
    ⟨fun e => d3 (e ▸ hj), fun e => e1 (e ▸ hj), fun e => k2 j hj j (Or.inl e) rfl, fun e => k2 j hj j (Or.inr e) rfl⟩
  have hrrC : ∀ j ∈ rr.idxs, j ≠ i ∧ j ≠ ir ∧ j ∉ idxsC c := fun j hj =>
    ⟨fun e => d4 (e ▸ hj), fun e => e2 (e ▸ hj), fun e => k1 j hj j e rfl⟩
  obtain ⟨t1, t2, t3, s1, s2, s3, R3, S3, root3, root3', L3u, L3n, L3⟩ :=
    lift_spec hC dC d5 e3 d2 hnull.2.2.2.2.2 n1 u1 n3
  obtain ⟨ml, hml, hml1, hml2, hml3⟩ := rep_some hl
  obtain ⟨mrl, hmrl, hmrl1, hmrl2, hmrl3⟩ := rep_some hrl
  obtain ⟨mrr, hmrr, hmrr1, hmrr2, hmrr3⟩ := rep_some hrr
  have il := hlC _ (idx_mem l)
  have irl := hrlC _ (idx_mem rl)
  have irr := hrrC _ (idx_mem rr)
  have L3l : L t3 l.idx = some ml := by rw [L3 _ il.2.2.2.2 il.1 il.2.1, hml]
  have L3rl : L t3 rl.idx = some mrl := by rw [L3 _ irl.2.2.2 irl.1 irl.2.1, hmrl]
  have L3rr : L t3 rr.idx = some mrr := by rw [L3 _ irr.2.2 irr.1 irr.2.1, hmrr]
  have run : t.rotateRight i l.idx ir = (if mrl.height > mrr.height then
      (do let t ← t3.upd ir (fun m => { m with right := rl.idx }); let t ← t.upd i (fun m => { m with right := rr.idx })
          let t ← t.upd rr.idx (fun m => { m with parent := i })
          let t ← t.upd i (fun m => { m with box := merge ml.box mrr.box, height := 1 + max ml.height mrr.height })
          let t ← t.upd ir (fun m => { m with box := merge (merge ml.box mrr.box) mrl.box, height := 1 + max (1 + max ml.height mrr.height) mrl.height })
          return (t, ir))
    else
      (do let t ← t3.upd ir (fun m => { m with right := rr.idx }); let t ← t.upd i (fun m => { m with right := rl.idx })
          let t ← t.upd rl.idx (fun m => { m with parent := i })
          let t ← t.upd i (fun m => { m with box := merge ml.box mrl.box, height := 1 + max ml.height mrl.height })
          let t ← t.upd ir (fun m => { m with box := merge (merge ml.box mrl.box) mrr.box, height := 1 + max (1 + max ml.height mrl.height) mrr.height })
          return (t, ir))) := by
    unfold Tree.rotateRight
    simp only [get_ok u1, get_ok n1, bind, Except.bind, s1, s2, s3, get_ok L3l, u4, u5, get_ok L3rl, get_ok L3rr]
  by_cases hcmp : mrl.height > mrr.height
  · rw [if_pos hcmp] at run
    obtain ⟨t', g1, g2, g3, g4, g5, g6, g7⟩ := run5 L3u L3n L3rr (Ne.symm d2) (Ne.symm irr.2.1) (Ne.symm irr.1)
      (fun m => { m with right := rl.idx }) (fun m => { m with right := rr.idx }) (fun m => { m with parent := i })
      (fun m => { m with box := merge ml.box mrr.box, height := 1 + max ml.height mrr.height })
      (fun m => { m with box := merge (merge ml.box mrr.box) mrl.box, height := 1 + max (1 + max ml.height mrr.height) mrl.height })
      (fun _ => ⟨rfl, rfl⟩) (fun _ => ⟨rfl, rfl⟩) (fun _ => ⟨rfl, rfl⟩) (fun _ => ⟨rfl, rfl⟩) (fun _ => ⟨rfl, rfl⟩)
    refine ⟨t', ir, _, _, .node i _ _ l rr, rl, run.trans g1, ⟨?_, ?_, wl, wrr⟩, wrl, step_of hz ⟨⟨_, g4, rfl, ?_, rfl, rfl, rfl⟩, ⟨⟨_, g5, rfl, rfl, n4, rfl, rfl⟩, ?_, ?_⟩, ?_⟩
      (repC_congr R3 ?_) (fun e => g3.trans (root3 e)) (fun e => g3.trans (root3' e)) (S3.trans g2) ?_ ?_ ?_⟩
    · rw [hml1, hmrr1]
    · rw [hml3, hmrr3]
    · exact n3
    · refine rep_congr hl fun j hj => ?_
      obtain ⟨a1, a2, a3, a4, a5⟩ := hlC j hj
      rw [g7 j a2 a1 (fun e => a4 (e ▸ idx_mem rr)), L3 j a5 a1 a2]
    · refine rep_reparent hrr drr (fun j hj hne => ?_) (fun n hn => ?_)
      · obtain ⟨a1, a2, a5⟩ := hrrC j hj
        rw [g7 j a2 a1 hne, L3 j a5 a1 a2]
      · rw [hmrr] at hn; cases hn; exact g6
    · refine rep_congr hrl fun j hj => ?_
      obtain ⟨a1, a2, a4, a5⟩ := hrlC j hj
      rw [g7 j a2 a1 (fun e => a4 (e ▸ idx_mem rr)), L3 j a5 a1 a2]
    · intro j hj
      exact g7 j (fun e => e3 (e ▸ hj)) (fun e => d5 (e ▸ hj)) (fun e => irr.2.2 (e ▸ hj))
    · simp only [T.idxs]
      grind
    · simp only [T.leaves]
      grind
    · intro j hj
      simp only [T.idxs, List.cons_append, List.append_assoc, List.mem_append, List.mem_cons, not_or] at hj
      obtain ⟨a1, a2, a3, a4, a5, a6⟩ := hj
      rw [g7 j a3 a1 (fun e => a5 (e ▸ idx_mem rr)), L3 j a6 a1 a3]
  · rw [if_neg hcmp] at run
    obtain ⟨t', g1, g2, g3, g4, g5, g6, g7⟩ := run5 L3u L3n L3rl (Ne.symm d2) (Ne.symm irl.2.1) (Ne.symm irl.1)
      (fun m => { m with right := rr.idx }) (fun m => { m with right := rl.idx }) (fun m => { m with parent := i })
      (fun m => { m with box := merge ml.box mrl.box, height := 1 + max ml.height mrl.height })
      (fun m => { m with box := merge (merge ml.box mrl.box) mrr.box, height := 1 + max (1 + max ml.height mrl.height) mrr.height })
      (fun _ => ⟨rfl, rfl⟩) (fun _ => ⟨rfl, rfl⟩) (fun _ => ⟨rfl, rfl⟩) (fun _ => ⟨rfl, rfl⟩) (fun _ => ⟨rfl, rfl⟩)
    refine ⟨t', ir, _, _, .node i _ _ l rl, rr, run.trans g1, ⟨?_, ?_, wl, wrl⟩, wrr, step_of hz ⟨⟨_, g4, rfl, ?_, rfl, rfl, rfl⟩, ⟨⟨_, g5, rfl, rfl, n4, rfl, rfl⟩, ?_, ?_⟩, ?_⟩
      (repC_congr R3 ?_) (fun e => g3.trans (root3 e)) (fun e => g3.trans (root3' e)) (S3.trans g2) ?_ ?_ ?_⟩
    · rw [hml1, hmrl1]
    · rw [hml3, hmrl3]
    · exact n3
    · refine rep_congr hl fun j hj => ?_
      obtain ⟨a1, a2, a3, a4, a5⟩ := hlC j hj
      rw [g7 j a2 a1 (fun e => a3 (e ▸ idx_mem rl)), L3 j a5 a1 a2]
    · refine rep_reparent hrl drl (fun j hj hne => ?_) (fun n hn => ?_)
      · obtain ⟨a1, a2, a4, a5⟩ := hrlC j hj
        rw [g7 j a2 a1 hne, L3 j a5 a1 a2]
      · rw [hmrl] at hn; cases hn; exact g6
    · refine rep_congr hrr fun j hj => ?_
      obtain ⟨a1, a2, a5⟩ := hrrC j hj
      rw [g7 j a2 a1 (fun e => irl.2.2.1 (e ▸ hj)), L3 j a5 a1 a2]
    · intro j hj
      exact g7 j (fun e => e3 (e ▸ hj)) (fun e => d5 (e ▸ hj)) (fun e => irl.2.2.2 (e ▸ hj))
    · simp only [T.idxs]
      grind
    · simp only [T.leaves]
      grind
    · intro j hj
      simp only [T.idxs, List.cons_append, List.append_assoc, List.mem_append, List.mem_cons, not_or] at hj
      obtain ⟨a1, a2, a3, a4, a5, a6⟩ := hj
      rw [g7 j a3 a1 (fun e => a4 (e ▸ idx_mem rl)), L3 j a6 a1 a3]

theorem rotateLeft_spec {t : Tree K} {c : List (Frame K)} {i il : Nat} {b bl : Box K} {h hl : Int} {ll lr r : T K}
    (hz : Zip t (.node i b h (.node il bl hl ll lr) r) c) (wr : r.Wf) (wll : ll.Wf) (wlr : lr.Wf) :
    ∃ t' i' b' h' l' r', t.rotateLeft i il r.idx = .ok (t', i') ∧ l'.Wf ∧ r'.Wf ∧
      Step t t' (.node i b h (.node il bl hl ll lr) r) (.node i' b' h' l' r') c := by
  obtain ⟨⟨⟨nn, n1, n2, n3, n4, n5, n6⟩, ⟨⟨nu, u1, u2, u3, u4, u5, u6⟩, hll, hlr⟩, hr⟩, hC, hnd, hnull, hroot⟩ := id hz
  simp only [T.idx] at hC
  have hnd' := hnd
  simp only [T.idxs, List.cons_append, List.append_assoc, List.nodup_cons, List.nodup_append, List.mem_append,
    List.mem_cons, not_or] at hnd'
  simp only [T.idxs, List.cons_append, List.append_assoc, List.mem_append, List.mem_cons, not_or] at hnull
  obtain ⟨⟨d1, d2, d3, d4, d5⟩, ⟨e1, e2, e3, e4⟩, dll, ⟨dlr, ⟨dr, dC, k1⟩, k2⟩, k3⟩ := hnd'
  have hllC : ∀ j ∈ ll.idxs, j ≠ i ∧ j ≠ il ∧ j ∉ lr.idxs ∧ j ∉ r.idxs ∧ j ∉ idxsC c := fun j hj =>
    ⟨fun e => d2 (e ▸ hj), fun e => e1 (e ▸ hj), fun e => k3 j hj j (Or.inl e) rfl,
      fun e => k3 j hj j (Or.inr (Or.inl e)) rfl, fun e => k3 j hj j (Or.inr (Or.inr e)) rfl⟩
  have hlrC : ∀ j ∈ lr.idxs, j ≠ i ∧ j ≠ il ∧ j ∉ r.idxs ∧ j ∉ idxsC c := fun j hj =>
    ⟨fun e => d3 (e ▸ hj), fun e => e2 (e ▸ hj), fun e => k2 j hj j (Or.inl e) rfl, fun e => k2 j hj j (Or.inr e) rfl⟩
  have hrC : ∀ j ∈ r.idxs, j ≠ i ∧ j ≠ il ∧ j ∉ idxsC c := fun j hj =>
    ⟨fun e => d4 (e ▸ hj), fun e => e3 (e ▸ hj), fun e => k1 j hj j e rfl⟩
  obtain ⟨t1, t2, t3, s1, s2, s3, R3, S3, root3, root3', L3u, L3n, L3⟩ :=
    lift_spec hC dC d5 e4 d1 hnull.2.2.2.2.2 n1 u1 n3
  obtain ⟨mr, hmr, hmr1, hmr2, hmr3⟩ := rep_some hr
  obtain ⟨mll, hmll, hmll1, hmll2, hmll3⟩ := rep_some hll
  obtain ⟨mlr, hmlr, hmlr1, hmlr2, hmlr3⟩ := rep_some hlr
  have ir := hrC _ (idx_mem r)
  have ill := hllC _ (idx_mem ll)
  have ilr := hlrC _ (idx_mem lr)
  have L3r : L t3 r.idx = some mr := by rw [L3 _ ir.2.2 ir.1 ir.2.1, hmr]
  have L3ll : L t3 ll.idx = some mll := by rw [L3 _ ill.2.2.2.2 ill.1 ill.2.1, hmll]
  have L3lr : L t3 lr.idx = some mlr := by rw [L3 _ ilr.2.2.2 ilr.1 ilr.2.1, hmlr]
  have run : t.rotateLeft i il r.idx = (if mll.height > mlr.height then
      (do let t ← t3.upd il (fun m => { m with right := ll.idx }); let t ← t.upd i (fun m => { m with left := lr.idx })
          let t ← t.upd lr.idx (fun m => { m with parent := i })
          let t ← t.upd i (fun m => { m with box := merge mr.box mlr.box, height := 1 + max mr.height mlr.height })
          let t ← t.upd il (fun m => { m with box := merge (merge mr.box mlr.box) mll.box, height := 1 + max (1 + max mr.height mlr.height) mll.height })
          return (t, il))
    else
      (do let t ← t3.upd il (fun m => { m with right := lr.idx }); let t ← t.upd i (fun m => { m with left := ll.idx })
          let t ← t.upd ll.idx (fun m => { m with parent := i })
          let t ← t.upd i (fun m => { m with box := merge mr.box mll.box, height := 1 + max mr.height mll.height })
          let t ← t.upd il (fun m => { m with box := merge (merge mr.box mll.box) mlr.box, height := 1 + max (1 + max mr.height mll.height) mlr.height })
          return (t, il))) := by
    unfold Tree.rotateLeft
    simp only [get_ok u1, get_ok n1, bind, Except.bind, s1, s2, s3, get_ok L3r, u4, u5, get_ok L3ll, get_ok L3lr]
  by_cases hcmp : mll.height > mlr.height
  · rw [if_pos hcmp] at run
    obtain ⟨t', g1, g2, g3, g4, g5, g6, g7⟩ := run5 L3u L3n L3lr (Ne.symm d1) (Ne.symm ilr.2.1) (Ne.symm ilr.1)
      (fun m => { m with right := ll.idx }) (fun m => { m with left := lr.idx }) (fun m => { m with parent := i })
      (fun m => { m with box := merge mr.box mlr.box, height := 1 + max mr.height mlr.height })
      (fun m => { m with box := merge (merge mr.box mlr.box) mll.box, height := 1 + max (1 + max mr.height mlr.height) mll.height })
      (fun _ => ⟨rfl, rfl⟩) (fun _ => ⟨rfl, rfl⟩) (fun _ => ⟨rfl, rfl⟩) (fun _ => ⟨rfl, rfl⟩) (fun _ => ⟨rfl, rfl⟩)
    refine ⟨t', il, _, _, .node i _ _ lr r, ll, run.trans g1, ⟨?_, ?_, wlr, wr⟩, wll, step_of hz ⟨⟨_, g4, rfl, ?_, rfl, rfl, rfl⟩, ⟨⟨_, g5, rfl, rfl, rfl, n5, rfl⟩, ?_, ?_⟩, ?_⟩
      (repC_congr R3 ?_) (fun e => g3.trans (root3 e)) (fun e => g3.trans (root3' e)) (S3.trans g2) ?_ ?_ ?_⟩
    · rw [hmr1, hmlr1, merge_comm]
    · rw [hmr3, hmlr3, max_comm]
    · exact n3
    · refine rep_reparent hlr dlr (fun j hj hne => ?_) (fun n hn => ?_)
      · obtain ⟨a1, a2, a3, a4⟩ := hlrC j hj
        rw [g7 j a2 a1 hne, L3 j a4 a1 a2]
      · rw [hmlr] at hn; cases hn; exact g6
    · refine rep_congr hr fun j hj => ?_
      obtain ⟨a1, a2, a5⟩ := hrC j hj
      rw [g7 j a2 a1 (fun e => ilr.2.2.1 (e ▸ hj)), L3 j a5 a1 a2]
    · refine rep_congr hll fun j hj => ?_
      obtain ⟨a1, a2, a3, a4, a5⟩ := hllC j hj
      rw [g7 j a2 a1 (fun e => a3 (e ▸ idx_mem lr)), L3 j a5 a1 a2]
    · intro j hj
      exact g7 j (fun e => e4 (e ▸ hj)) (fun e => d5 (e ▸ hj)) (fun e => ilr.2.2.2 (e ▸ hj))
    · simp only [T.idxs]
      grind
    · simp only [T.leaves]
      grind
    · intro j hj
      simp only [T.idxs, List.cons_append, List.append_assoc, List.mem_append, List.mem_cons, not_or] at hj
      obtain ⟨a1, a2, a3, a4, a5, a6⟩ := hj
      rw [g7 j a2 a1 (fun e => a4 (e ▸ idx_mem lr)), L3 j a6 a1 a2]
  · rw [if_neg hcmp] at run
    obtain ⟨t', g1, g2, g3, g4, g5, g6, g7⟩ := run5 L3u L3n L3ll (Ne.symm d1) (Ne.symm ill.2.1) (Ne.symm ill.1)
      (fun m => { m with right := lr.idx }) (fun m => { m with left := ll.idx }) (fun m => { m with parent := i })
      (fun m => { m with box := merge mr.box mll.box, height := 1 + max mr.height mll.height })
      (fun m => { m with box := merge (merge mr.box mll.box) mlr.box, height := 1 + max (1 + max mr.height mll.height) mlr.height })
      (fun _ => ⟨rfl, rfl⟩) (fun _ => ⟨rfl, rfl⟩) (fun _ => ⟨rfl, rfl⟩) (fun _ => ⟨rfl, rfl⟩) (fun _ => ⟨rfl, rfl⟩)
    refine ⟨t', il, _, _, .node i _ _ ll r, lr, run.trans g1, ⟨?_, ?_, wll, wr⟩, wlr, step_of hz ⟨⟨_, g4, rfl, ?_, rfl, rfl, rfl⟩, ⟨⟨_, g5, rfl, rfl, rfl, n5, rfl⟩, ?_, ?_⟩, ?_⟩
      (repC_congr R3 ?_) (fun e => g3.trans (root3 e)) (fun e => g3.trans (root3' e)) (S3.trans g2) ?_ ?_ ?_⟩
    · rw [hmr1, hmll1, merge_comm]
    · rw [hmr3, hmll3, max_comm]
    · exact n3
    · refine rep_reparent hll dll (fun j hj hne => ?_) (fun n hn => ?_)
      · obtain ⟨a1, a2, a3, a4, a5⟩ := hllC j hj
        rw [g7 j a2 a1 hne, L3 j a5 a1 a2]
      · rw [hmll] at hn; cases hn; exact g6
    · refine rep_congr hr fun j hj => ?_
      obtain ⟨a1, a2, a5⟩ := hrC j hj
      rw [g7 j a2 a1 (fun e => ill.2.2.2.1 (e ▸ hj)), L3 j a5 a1 a2]
    · refine rep_congr hlr fun j hj => ?_
      obtain ⟨a1, a2, a3, a4⟩ := hlrC j hj
      rw [g7 j a2 a1 (fun e => ill.2.2.1 (e ▸ hj)), L3 j a4 a1 a2]
    · intro j hj
      exact g7 j (fun e => e4 (e ▸ hj)) (fun e => d5 (e ▸ hj)) (fun e => ill.2.2.2.2 (e ▸ hj))
    · simp only [T.idxs]
      grind
    · simp only [T.leaves]
      grind
    · intro j hj
      simp only [T.idxs, List.cons_append, List.append_assoc, List.mem_append, List.mem_cons, not_or] at hj
      obtain ⟨a1, a2, a3, a4, a5, a6⟩ := hj
      rw [g7 j a2 a1 (fun e => a3 (e ▸ idx_mem ll)), L3 j a6 a1 a2]

omit [Field K] [LinearOrder K] in
theorem Step.refl {t : Tree K} {x : T K} {c : List (Frame K)} (h : Zip t x c) : Step t t x x c :=
  ⟨h, Same.refl t, List.Perm.refl _, List.Perm.refl _, fun _ _ => rfl⟩

omit [Field K] [LinearOrder K] in
theorem idx_leaf (i : Nat) (b : Box K) : (T.leaf i b).idx = i := rfl

omit [Field K] [LinearOrder K] in
theorem idx_node (i : Nat) (b : Box K) (h : Int) (l r : T K) : (T.node i b h l r).idx = i := rfl

omit [Field K] [LinearOrder K] in
theorem height_leaf (i : Nat) (b : Box K) : (T.leaf i b).height = 0 := rfl

omit [Field K] [LinearOrder K] in
theorem height_node (i : Nat) (b : Box K) (h : Int) (l r : T K) : (T.node i b h l r).height = h := rfl

omit [Field K] in
theorem wf_height {x : T K} (h : x.Wf) : 0 ≤ x.height := by
  cases x with
  | leaf => simp [T.height]
  | node i b hh l r =>
    obtain ⟨-, h1, h2, h3⟩ := h
    have := wf_height h2
    rw [height_node, h1]
    have := le_max_left l.height r.height
    omega

theorem balance_spec {t : Tree K} {c : List (Frame K)} {i : Nat} {b : Box K} {h : Int} {l r : T K}
    (hz : Zip t (.node i b h l r) c) (wl : l.Wf) (wr : r.Wf) :
    ∃ t' i' b' h' l' r', t.balance i = .ok (t', i') ∧ l'.Wf ∧ r'.Wf ∧
      Step t t' (.node i b h l r) (.node i' b' h' l' r') c := by
  obtain ⟨⟨n, n1, n2, n3, n4, n5, n6⟩, hl, hr⟩ := hz.rep
  obtain ⟨ml, hml, hml1, hml2, hml3⟩ := rep_some hl
  obtain ⟨mr, hmr, hmr1, hmr2, hmr3⟩ := rep_some hr
  simp only [Tree.balance, get_ok n1, bind, Except.bind]
  split_ifs with h1 h2 h3
  · exact ⟨t, i, b, h, l, r, rfl, wl, wr, Step.refl hz⟩
  all_goals simp only [n4, n5, get_ok hml, get_ok hmr]
  split_ifs with h2 h3
  · -- right branch
    cases r with
    | leaf j bb =>
      simp only [hml3, hmr3, height_leaf] at h2
      have := wf_height wl
      omega
    | node ir br hr' rl rr =>
      obtain ⟨-, -, w1, w2⟩ := wr
      exact rotateRight_spec hz wl w1 w2
  · cases l with
    | leaf j bb =>
      simp only [hml3, hmr3, height_leaf] at h3
      have := wf_height wr
      omega
    | node il bl hl' ll lr =>
      obtain ⟨-, -, w1, w2⟩ := wl
      exact rotateLeft_spec hz wr w1 w2
  · exact ⟨t, i, b, h, l, r, rfl, wl, wr, Step.refl hz⟩

/-! ## The way back to the root -/

omit [Field K] [LinearOrder K] in
theorem idxs_fill (x : T K) (f : Frame K) : (f.fill x).idxs.Perm (x.idxs ++ f.idxs) := by
  cases f with
  | inL i b h r => simp only [Frame.fill, T.idxs, Frame.idxs, Frame.idx, Frame.sib]; grind
  | inR i b h l => simp only [Frame.fill, T.idxs, Frame.idxs, Frame.idx, Frame.sib]; grind

omit [Field K] [LinearOrder K] in
theorem leaves_fill (x : T K) (f : Frame K) : (f.fill x).leaves.Perm (x.leaves ++ f.sib.leaves) := by
  cases f with
  | inL i b h r => exact List.Perm.refl _
  | inR i b h l => simp only [Frame.fill, T.leaves, Frame.sib]; exact List.perm_append_comm

omit [Field K] [LinearOrder K] in
theorem fill_idx (x : T K) (f : Frame K) : (f.fill x).idx = f.idx := by cases f <;> rfl

omit [Field K] [LinearOrder K] in
theorem idxsC_cons (f : Frame K) (c : List (Frame K)) : idxsC (f :: c) = f.idxs ++ idxsC c := by
  simp [idxsC]

omit [Field K] [LinearOrder K] in
theorem leavesC_cons (f : Frame K) (c : List (Frame K)) : leavesC (f :: c) = f.sib.leaves ++ leavesC c := by
  simp [leavesC]

omit [Field K] [LinearOrder K] in
theorem perm_up (x : T K) (f : Frame K) (c : List (Frame K)) :
    ((f.fill x).idxs ++ idxsC c).Perm (x.idxs ++ idxsC (f :: c)) := by
  rw [idxsC_cons, ← List.append_assoc]
  exact (idxs_fill x f).append_right _

omit [Field K] [LinearOrder K] in
theorem zip_up {t : Tree K} {x : T K} {f : Frame K} {c : List (Frame K)} (h : Zip t x (f :: c)) : Zip t (f.fill x) c := by
  obtain ⟨h1, ⟨h2, h2'⟩, h3, h4, h5⟩ := h
  refine ⟨?_, by rw [fill_idx]; exact h2', ((perm_up x f c).nodup_iff).2 h3, fun g => h4 (((perm_up x f c).mem_iff).1 g), ?_⟩
  · cases f with
    | inL i b h r => exact ⟨h2.1, h1, h2.2⟩
    | inR i b h l => exact ⟨h2.1, h2.2, h1⟩
  · rw [h5, fill_idx]; rfl

omit [Field K] [LinearOrder K] in
/-- Descending to a child. -/
theorem zip_down_left {t : Tree K} {i : Nat} {b : Box K} {h : Int} {l r : T K} {c : List (Frame K)}
    (hz : Zip t (.node i b h l r) c) : Zip t l (.inL i b h r :: c) := by
  obtain ⟨⟨h1, h2, h2'⟩, hC, h3, h4, h5⟩ := hz
  have p := perm_up l (.inL i b h r) c
  exact ⟨h2, ⟨⟨h1, h2'⟩, hC⟩, p.nodup_iff.1 h3, fun g => h4 (p.mem_iff.2 g), h5⟩

omit [Field K] [LinearOrder K] in
theorem zip_down_right {t : Tree K} {i : Nat} {b : Box K} {h : Int} {l r : T K} {c : List (Frame K)}
    (hz : Zip t (.node i b h l r) c) : Zip t r (.inR i b h l :: c) := by
  obtain ⟨⟨h1, h2, h2'⟩, hC, h3, h4, h5⟩ := hz
  have p := perm_up r (.inR i b h l) c
  exact ⟨h2', ⟨⟨h1, h2⟩, hC⟩, p.nodup_iff.1 h3, fun g => h4 (p.mem_iff.2 g), h5⟩

/-- The update of the box and height of a node. -/
theorem refresh_spec {t : Tree K} {c : List (Frame K)} {i : Nat} {b : Box K} {h : Int} {l r : T K}
    (hz : Zip t (.node i b h l r) c) (b' : Box K) (h' : Int) :
    ∃ t', t.upd i (fun m => { m with height := h', box := b' }) = .ok t' ∧
      Step t t' (.node i b h l r) (.node i b' h' l r) c := by
  obtain ⟨⟨n, n1, n2, n3, n4, n5, n6⟩, hl, hr⟩ := hz.rep
  have hnd := hz.nodup
  simp only [T.idxs, List.cons_append, List.append_assoc, List.nodup_cons, List.mem_append, not_or] at hnd
  obtain ⟨⟨d1, d2, d3⟩, -⟩ := hnd
  have e : ∀ j, j ≠ i → L (t.put i { n with height := h', box := b' }) j = L t j := fun j hj => by
    rw [L_put n1, if_neg hj]
  refine ⟨_, upd_ok n1 _, step_of hz ⟨⟨{ n with height := h', box := b' }, ?_, rfl, n3, n4, n5, rfl⟩, rep_congr hl ?_, rep_congr hr ?_⟩ (repC_congr hz.repC ?_)
    (fun e => ?_) (fun _ => rfl) (same_put n1 rfl rfl) (List.Perm.refl _) (List.Perm.refl _) ?_⟩
  · rw [L_put n1, if_pos rfl]
  · exact fun j hj => e j (fun q => d1 (q ▸ hj))
  · exact fun j hj => e j (fun q => d2 (q ▸ hj))
  · exact fun j hj => e j (fun q => d3 (q ▸ hj))
  · show t.root = i
    rw [hz.root, e]; rfl
  · intro j hj
    refine e j fun q => hj ?_
    simp [T.idxs, q]

theorem fixUp_spec {t : Tree K} {c : List (Frame K)} {i : Nat} {b : Box K} {h : Int} {l r : T K} {fuel : Nat}
    (hz : Zip t (.node i b h l r) c) (wl : l.Wf) (wr : r.Wf) (wc : WfC c) (hf : c.length + 2 ≤ fuel) :
    ∃ t' x', t.fixUp fuel i = .ok t' ∧ Zip t' x' [] ∧ x'.Wf ∧ Same t t' ∧
      x'.idxs.Perm ((T.node i b h l r).idxs ++ idxsC c) ∧ x'.leaves.Perm ((T.node i b h l r).leaves ++ leavesC c) ∧
      ∀ j, j ∉ (T.node i b h l r).idxs ++ idxsC c → L t' j = L t j := by
  induction c generalizing t i b h l r fuel with
  | nil =>
    obtain ⟨fuel, rfl⟩ : ∃ k, fuel = k + 1 + 1 := ⟨fuel - 2, by simp at hf; omega⟩
    have hi : i ≠ nullNode := fun e => hz.null (by simp [T.idxs, e])
    obtain ⟨t1, i', b', h', l', r', g1, w1, w2, S1⟩ := balance_spec hz wl wr
    obtain ⟨⟨n, n1, n2, n3, n4, n5, n6⟩, hl, hr⟩ := S1.zip.rep
    obtain ⟨ml, hml, hml1, hml2, hml3⟩ := rep_some hl
    obtain ⟨mr, hmr, hmr1, hmr2, hmr3⟩ := rep_some hr
    obtain ⟨t2, g2, S2⟩ := refresh_spec S1.zip (merge ml.box mr.box) (1 + max ml.height mr.height)
    obtain ⟨⟨m, m1, m2, m3, m4, m5, m6⟩, -, -⟩ := S2.zip.rep
    refine ⟨t2, _, ?_, S2.zip, ⟨by rw [hml1, hmr1], by rw [hml3, hmr3], w1, w2⟩, S1.same.trans S2.same, ?_, ?_, ?_⟩
    · rw [Tree.fixUp, if_neg hi]
      simp only [g1, bind, Except.bind, get_ok n1, n4, n5, get_ok hml, get_ok hmr, g2, get_ok m1, m3, pidx]
      rw [Tree.fixUp, if_pos rfl]
    · simpa [idxsC] using S2.idxs.trans S1.idxs
    · simpa [leavesC] using S2.leaves.trans S1.leaves
    · intro j hj
      rw [S2.frame j (fun e => hj (((S1.idxs.append_right _).mem_iff).1 e)), S1.frame j hj]
  | cons f rest ih =>
    obtain ⟨fuel, rfl⟩ : ∃ k, fuel = k + 1 := ⟨fuel - 1, by omega⟩
    have hi : i ≠ nullNode := fun e => hz.null (by simp [T.idxs, e])
    obtain ⟨t1, i', b', h', l', r', g1, w1, w2, S1⟩ := balance_spec hz wl wr
    obtain ⟨⟨n, n1, n2, n3, n4, n5, n6⟩, hl, hr⟩ := S1.zip.rep
    obtain ⟨ml, hml, hml1, hml2, hml3⟩ := rep_some hl
    obtain ⟨mr, hmr, hmr1, hmr2, hmr3⟩ := rep_some hr
    obtain ⟨t2, g2, S2⟩ := refresh_spec S1.zip (merge ml.box mr.box) (1 + max ml.height mr.height)
    obtain ⟨⟨m, m1, m2, m3, m4, m5, m6⟩, -, -⟩ := S2.zip.rep
    have wx : (T.node i' (merge ml.box mr.box) (1 + max ml.height mr.height) l' r').Wf := ⟨by rw [hml1, hmr1], by rw [hml3, hmr3], w1, w2⟩
    have zu := zip_up S2.zip
    have hrun : t.fixUp (fuel + 1) i = t2.fixUp fuel f.idx := by
      rw [Tree.fixUp, if_neg hi]
      simp only [g1, bind, Except.bind, get_ok n1, n4, n5, get_ok hml, get_ok hmr, g2, get_ok m1, m3, pidx]
    generalize hx : T.node i' (merge ml.box mr.box) (1 + max ml.height mr.height) l' r' = x at *
    have wf' : f.sib.Wf := wc f (by simp)
    have wc' : WfC rest := fun q hq => wc q (by simp [hq])
    have hf' : rest.length + 2 ≤ fuel := by simp at hf; omega
    have fin : ∃ t' x', t2.fixUp fuel f.idx = .ok t' ∧ Zip t' x' [] ∧ x'.Wf ∧ Same t2 t' ∧
        x'.idxs.Perm ((f.fill x).idxs ++ idxsC rest) ∧ x'.leaves.Perm ((f.fill x).leaves ++ leavesC rest) ∧
        ∀ j, j ∉ (f.fill x).idxs ++ idxsC rest → L t' j = L t2 j := by
      cases f with
      | inL q bb hh r => exact ih zu wx wf' wc' hf'
      | inR q bb hh l => exact ih zu wf' wx wc' hf'
    obtain ⟨t', x', k1, k2, k3, k4, k5, k6, k7⟩ := fin
    have P : ((f.fill x).idxs ++ idxsC rest).Perm ((T.node i b h l r).idxs ++ idxsC (f :: rest)) :=
      (perm_up x f rest).trans ((S2.idxs.trans S1.idxs).append_right _)
    refine ⟨t', x', hrun.trans k1, k2, k3, (S1.same.trans S2.same).trans k4, k5.trans P, ?_, ?_⟩
    · refine k6.trans (((leaves_fill x f).append_right _).trans ?_)
      rw [leavesC_cons, List.append_assoc]
      exact (S2.leaves.trans S1.leaves).append_right _
    · intro j hj
      rw [k7 j (fun e => hj (P.mem_iff.1 e)), S2.frame j (fun e => hj (((S1.idxs.append_right _).mem_iff).1 e)), S1.frame j hj]

/-! ## The search for the sibling -/

omit [Field K] [LinearOrder K] in
theorem isLeaf_node {n : Node K} {i : Nat} (h : n.left = i) (hi : i ≠ nullNode) : n.isLeaf = false := by
  simp [Node.isLeaf, h, hi]

def T.depth : T K → Nat
  | .leaf _ _ => 0
  | .node _ _ _ l r => 1 + max l.depth r.depth

omit [Field K] [LinearOrder K] in
theorem depth_lt (x : T K) : x.depth < x.idxs.length := by
  induction x with
  | leaf => simp [T.depth, T.idxs]
  | node i b h l r ihl ihr => simp only [T.depth, T.idxs, List.length_cons, List.length_append]; omega

theorem findSibling_spec {t : Tree K} {leaf : Box K} {x : T K} {c : List (Frame K)} {fuel : Nat} (hz : Zip t x c)
    (wx : x.Wf) (wc : WfC c) (hf : x.depth < fuel) :
    ∃ y d, t.findSibling leaf fuel x.idx = .ok y.idx ∧ Zip t y d ∧ y.Wf ∧ WfC d ∧
      (y.idxs ++ idxsC d).Perm (x.idxs ++ idxsC c) ∧ (y.leaves ++ leavesC d).Perm (x.leaves ++ leavesC c) := by
  induction x generalizing c fuel with
  | leaf i b =>
    obtain ⟨fuel, rfl⟩ : ∃ k, fuel = k + 1 := ⟨fuel - 1, by simp [T.depth] at hf; omega⟩
    refine ⟨.leaf i b, c, ?_, hz, wx, wc, List.Perm.refl _, List.Perm.refl _⟩
    obtain ⟨n, n1, n2, n3, n4, n5⟩ := hz.rep
    simp only [idx_leaf, Tree.findSibling, get_ok n1, Node.isLeaf, n4, beq_self_eq_true, if_true]
  | node i b h l r ihl ihr =>
    obtain ⟨fuel, rfl⟩ : ∃ k, fuel = k + 1 := ⟨fuel - 1, by omega⟩
    obtain ⟨⟨n, n1, n2, n3, n4, n5, n6⟩, hl, hr⟩ := hz.rep
    obtain ⟨ml, hml, hml1, hml2, hml3⟩ := rep_some hl
    obtain ⟨mr, hmr, hmr1, hmr2, hmr3⟩ := rep_some hr
    obtain ⟨w1, w2, w3, w4⟩ := id wx
    have hln : l.idx ≠ nullNode := fun e => hz.null (by rw [← e]; simp [T.idxs, idx_mem])
    have hd : l.depth < fuel ∧ r.depth < fuel := by simp only [T.depth] at hf; omega
    simp only [idx_node, Tree.findSibling, get_ok n1, isLeaf_node n4 hln, n4, n5, get_ok hml, get_ok hmr, Bool.false_eq_true, if_false]
    split_ifs with q1 q2
    · exact ⟨.node i b h l r, c, rfl, hz, wx, wc, List.Perm.refl _, List.Perm.refl _⟩
    · obtain ⟨y, d, k1, k2, k3, k4, k5, k6⟩ := ihl (zip_down_left hz) w3 (fun f hf => by
        rcases List.mem_cons.1 hf with rfl | hf
        · exact w4
        · exact wc f hf) hd.1
      refine ⟨y, d, k1, k2, k3, k4, k5.trans (perm_up l (.inL i b h r) c).symm, k6.trans ?_⟩
      rw [leavesC_cons, ← List.append_assoc]
      exact ((leaves_fill l (.inL i b h r)).symm).append_right _
    · obtain ⟨y, d, k1, k2, k3, k4, k5, k6⟩ := ihr (zip_down_right hz) w4 (fun f hf => by
        rcases List.mem_cons.1 hf with rfl | hf
        · exact w3
        · exact wc f hf) hd.2
      refine ⟨y, d, k1, k2, k3, k4, k5.trans (perm_up r (.inR i b h l) c).symm, k6.trans ?_⟩
      rw [leavesC_cons, ← List.append_assoc]
      exact ((leaves_fill r (.inR i b h l)).symm).append_right _

/-! ## Allocation -/

/-- The nodes from index `nodeCount` on are free and chained in order. -/
structure Pool (t : Tree K) : Prop where
  len : t.nodes.length = t.nodeCapacity
  le : t.nodeCount ≤ t.nodeCapacity
  pos : 0 < t.nodeCapacity
  lt : t.nodeCapacity ≤ nullNode
  free : t.freeList = if t.nodeCount < t.nodeCapacity then t.nodeCount else nullNode
  chain : ∀ j n, t.nodeCount ≤ j → L t j = some n → n.next = if j + 1 < t.nodeCapacity then j + 1 else nullNode

omit [Field K] [LinearOrder K] in
theorem pool_same {t t' : Tree K} (h : Pool t) (hs : Same t t') : Pool t' := by
  refine ⟨by rw [hs.len, hs.cap, h.len], by rw [hs.count, hs.cap]; exact h.le, by rw [hs.cap]; exact h.pos,
    by rw [hs.cap]; exact h.lt, by rw [hs.free, hs.count, hs.cap]; exact h.free, fun j n hj hn => ?_⟩
  rw [hs.count] at hj
  rw [hs.cap]
  have := hs.fixed j
  rw [hn] at this
  cases hL : L t j with
  | none => simp [hL] at this
  | some m =>
    simp only [hL, Option.map_some, Option.some.injEq, Prod.mk.injEq] at this
    rw [this.1]
    exact h.chain j m hj hL

omit [Field K] [LinearOrder K] in
theorem chain_get (first cap : Nat) (nodes : List (Node K)) (j : Nat) :
    (chain first cap nodes)[j]? = nodes[j]?.map fun n =>
      if first ≤ j ∧ j + 1 < cap then { n with next := j + 1, height := -1 }
      else if j + 1 = cap then { n with next := nullNode, height := -1 } else n := by
  simp [chain, List.getElem?_mapIdx]

omit [Field K] [LinearOrder K] in
theorem pool_new (junk : Node K) : Pool (Tree.new junk) := by
  refine ⟨by simp [Tree.new, chain], by simp [Tree.new], by simp [Tree.new], by simp [Tree.new, nullNode], by simp [Tree.new], ?_⟩
  intro j n _ hn
  simp only [L, Tree.new, chain_get, List.getElem?_replicate] at hn
  show n.next = if j + 1 < 16 then j + 1 else nullNode
  by_cases h : j < 16
  · rw [if_pos h, Option.map_some, Option.some.injEq] at hn
    subst hn
    by_cases h3 : j + 1 < 16
    · rw [if_pos ⟨by omega, h3⟩, if_pos h3]
    · rw [if_neg (by omega), if_pos (by omega), if_neg h3]
  · rw [if_neg h] at hn; simp at hn

omit [Field K] [LinearOrder K] in
/-- Taking the first node of the free list when there is one. -/
theorem take_free {t : Tree K} (hp : Pool t) (hlt : t.nodeCount < t.nodeCapacity) :
    ∃ t2 n, t.get t.nodeCount = .ok n ∧ t.upd t.nodeCount (fun n => { n with parent := nullNode, left := nullNode, right := nullNode, height := 0 }) = .ok t2 ∧
      Pool { t2 with freeList := n.next, nodeCount := t2.nodeCount + 1 } ∧ t2.root = t.root ∧ t2.particleMap = t.particleMap ∧
      t2.nodeCount = t.nodeCount ∧
      L t2 t.nodeCount = some { n with parent := nullNode, left := nullNode, right := nullNode, height := 0 } ∧
      ∀ j, j ≠ t.nodeCount → L t2 j = L t j := by
  have hl : t.nodeCount < t.nodes.length := by rw [hp.len]; exact hlt
  have h1 : L t t.nodeCount = some t.nodes[t.nodeCount] := by simp [L, hl]
  generalize t.nodes[t.nodeCount] = n at h1
  refine ⟨_, n, get_ok h1, upd_ok h1 _, ?_, rfl, rfl, rfl, by rw [L_put h1, if_pos rfl], fun j hj => by rw [L_put h1, if_neg hj]⟩
  have hc := hp.chain _ n le_rfl h1
  refine ⟨by simp [Tree.put, hp.len], ?_, hp.pos, hp.lt, ?_, ?_⟩
  · show t.nodeCount + 1 ≤ t.nodeCapacity
    omega
  · exact hc
  · intro j m hj hm
    have hj' : t.nodeCount + 1 ≤ j := hj
    have hm' : L (t.put t.nodeCount { n with parent := nullNode, left := nullNode, right := nullNode, height := 0 }) j = some m := hm
    rw [L_put h1, if_neg (by omega)] at hm'
    exact hp.chain j m (by omega) hm'

/-- The tree with the doubled array. -/
def grown (junk : Node K) (t : Tree K) : Tree K :=
  { t with
    nodeCapacity := 2 * t.nodeCount
    nodes := chain t.nodeCount (2 * t.nodeCount)
      ((t.nodes ++ List.replicate (2 * t.nodeCount - t.nodes.length) junk).take (2 * t.nodeCount))
    freeList := t.nodeCount }

omit [Field K] [LinearOrder K] in
theorem allocate_spec {junk : Node K} {t : Tree K} (hp : Pool t) (hc : t.nodeCount < 2147483648) :
    ∃ t' n, t.allocate junk = .ok (t', t.nodeCount) ∧ Pool t' ∧ t'.nodeCount = t.nodeCount + 1 ∧ t'.root = t.root ∧
      t'.particleMap = t.particleMap ∧ L t' t.nodeCount = some n ∧ n.parent = nullNode ∧ n.left = nullNode ∧ n.right = nullNode ∧
      n.height = 0 ∧ ∀ j, j < t.nodeCount → L t' j = L t j := by
  by_cases hlt : t.nodeCount < t.nodeCapacity
  · obtain ⟨t2, n, g1, g2, g3, g4, g5, g6, g7, g8⟩ := take_free hp hlt
    have hf := hp.free
    rw [if_pos hlt] at hf
    have hne : t.freeList ≠ nullNode := by
      have := hp.lt
      omega
    refine ⟨_, _, ?_, g3, by simp [g6], g4, g5, g7, rfl, rfl, rfl, rfl, fun j hj => g8 j (by omega)⟩
    simp only [Tree.allocate, if_neg hne]
    simp only [hf, g1, g2]
  · have hf := hp.free
    rw [if_neg hlt] at hf
    have hle := hp.le
    have hpos := hp.pos
    have hcap : t.nodeCapacity = t.nodeCount := by omega
    have hmod : (t.nodeCapacity * 2) % 4294967296 = 2 * t.nodeCount := by omega
    have hlen : t.nodes.length = t.nodeCount := by rw [hp.len, hcap]
    set t1 : Tree K := grown junk t with ht1
    have hL1 : ∀ j, L t1 j = (if j < 2 * t.nodeCount then (if j < t.nodeCount then t.nodes[j]? else some junk) else none).map fun n =>
        if t.nodeCount ≤ j ∧ j + 1 < 2 * t.nodeCount then { n with next := j + 1, height := -1 }
        else if j + 1 = 2 * t.nodeCount then { n with next := nullNode, height := -1 } else n := by
      intro j
      simp only [L, ht1, grown, chain_get, List.getElem?_take, List.getElem?_append, hlen, List.getElem?_replicate]
      congr 1
      split_ifs <;> first | rfl | omega
    have hp1 : Pool t1 := by
      refine ⟨?_, ?_, ?_, ?_, ?_, ?_⟩
      · simp only [ht1, grown, AABBTree.chain, List.length_mapIdx, List.length_take, List.length_append, List.length_replicate, hlen]
        omega
      · show t.nodeCount ≤ 2 * t.nodeCount
        omega
      · show 0 < 2 * t.nodeCount
        omega
      · show 2 * t.nodeCount ≤ nullNode
        simp only [nullNode]; omega
      · show t.nodeCount = if t.nodeCount < 2 * t.nodeCount then t.nodeCount else nullNode
        rw [if_pos (by omega)]
      · intro j n hj hn
        have hj' : t.nodeCount ≤ j := hj
        show n.next = if j + 1 < 2 * t.nodeCount then j + 1 else nullNode
        rw [hL1] at hn
        by_cases h2 : j < 2 * t.nodeCount
        · rw [if_pos h2, if_neg (by omega), Option.map_some, Option.some.injEq] at hn
          subst hn
          by_cases h3 : j + 1 < 2 * t.nodeCount
          · rw [if_pos ⟨hj', h3⟩, if_pos h3]
          · rw [if_neg (by omega), if_pos (by omega), if_neg h3]
        · rw [if_neg h2] at hn; simp at hn
    obtain ⟨t2, n, g1, g2, g3, g4, g5, g6, g7, g8⟩ := take_free hp1 (show t.nodeCount < 2 * t.nodeCount by omega)
    refine ⟨_, _, ?_, g3, by simp [g6, ht1, grown], g4, g5, g7, rfl, rfl, rfl, rfl, fun j hj => ?_⟩
    · have g1' : t1.get t.nodeCount = .ok n := g1
      have g2' : t1.upd t.nodeCount (fun n => { n with parent := nullNode, left := nullNode, right := nullNode, height := 0 }) = .ok t2 := g2
      simp only [ht1, grown] at g1' g2'
      simp only [Tree.allocate, if_pos hf, hmod, g1', g2']
    · show L t2 j = L t j
      have : j ≠ t1.nodeCount := by show j ≠ t.nodeCount; omega
      rw [g8 j this, hL1, if_pos (by omega), if_pos hj]
      cases h : t.nodes[j]? with
      | none => simp [L, h]
      | some m =>
        simp only [Option.map_some, L, h]
        rw [if_neg (by omega), if_neg (by omega)]

/-! ## Insertion -/

/-- The particles of the first `m` nodes have not changed. -/
def Parts (t t' : Tree K) (m : Nat) : Prop := ∀ j < m, (L t' j).map (·.particle) = (L t j).map (·.particle)

omit [Field K] [LinearOrder K] in
theorem parts_same {t t' : Tree K} (h : Same t t') (m : Nat) : Parts t t' m := by
  intro j _
  have := h.fixed j
  cases h1 : L t' j <;> cases h2 : L t j <;> simp_all

omit [Field K] [LinearOrder K] in
theorem Parts.trans {t t' t'' : Tree K} {m : Nat} (h : Parts t t' m) (h' : Parts t' t'' m) : Parts t t'' m :=
  fun j hj => (h' j hj).trans (h j hj)

theorem attach_spec {junk : Node K} {t : Tree K} {y : T K} {d : List (Frame K)} {k : Nat} {nk : Node K} {lb : Box K} (hz : Zip t y d)
    (hp : Pool t) (hc : t.nodeCount < 2147483648) (hlt : ∀ j ∈ y.idxs ++ idxsC d, j < t.nodeCount) (hk : k < t.nodeCount)
    (hk' : k ∉ y.idxs ++ idxsC d) (hnk : L t k = some nk) (k1 : nk.box = lb) (k2 : nk.left = nullNode) (k3 : nk.height = 0) :
    ∃ t' b h, t.attach junk k lb y.idx = .ok t' ∧ Zip t' (.node t.nodeCount b h y (.leaf k lb)) d ∧ Pool t' ∧
      t'.nodeCount = t.nodeCount + 1 ∧ t'.particleMap = t.particleMap ∧ Parts t t' t.nodeCount := by
  obtain ⟨ms, hms, hms1, hms2, hms3⟩ := rep_some hz.rep
  obtain ⟨t1, n, a1, P1, c1, r1, pm1, L1, n1, n2, n3, n4, E1⟩ := allocate_spec (junk := junk) hp hc
  set q := t.nodeCount with hq
  have hnull := hz.null
  have hnd := hz.nodup
  rw [List.nodup_append] at hnd
  have hqd : q ∉ idxsC d := fun e => absurd (hlt q (List.mem_append_right _ e)) (lt_irrefl _)
  have hqy : q ∉ y.idxs := fun e => absurd (hlt q (List.mem_append_left _ e)) (lt_irrefl _)
  have hqn : q ≠ nullNode := by simp only [nullNode]; omega
  have hkn : k ≠ nullNode := by simp only [nullNode]; omega
  have hkq : k ≠ q := by omega
  have hyq : y.idx ≠ q := fun e => hqy (e ▸ idx_mem y)
  have hyk : y.idx ≠ k := fun e => hk' (List.mem_append_left _ (e ▸ idx_mem y))
  have hkd : k ∉ idxsC d := fun e => hk' (List.mem_append_right _ e)
  have hky : k ∉ y.idxs := fun e => hk' (List.mem_append_left _ e)
  have hyd : y.idx ∉ idxsC d := fun e => hnd.2.2 _ (idx_mem y) _ e rfl
  -- first update of the new parent
  set n' : Node K := { n with parent := ms.parent, box := merge lb ms.box, height := ms.height + 1 } with hn'
  have u2 := upd_ok L1 (fun m : Node K => { m with parent := ms.parent, box := merge lb ms.box, height := ms.height + 1 })
  have S2 : Same t1 (t1.put q n') := same_put L1 rfl rfl
  have E2 : ∀ j, L (t1.put q n') j = if j = q then some n' else L t1 j := fun j => L_put L1 n' j
  have r2 : (t1.put q n').root = t1.root := rfl
  have u2' : t1.upd q (fun m : Node K => { m with parent := ms.parent, box := merge lb ms.box, height := ms.height + 1 }) = .ok (t1.put q n') := u2
  generalize t1.put q n' = t2 at *
  have C2 : RepC (L t2) y.idx d := by
    refine repC_congr hz.repC fun j hj => ?_
    have h1 : j ≠ q := fun e => hqd (e ▸ hj)
    rw [E2, if_neg h1, E1 j (hlt j (List.mem_append_right _ hj))]
  obtain ⟨t3, a3, C3, S3, r3, r3', E3⟩ := replaceChild_spec (new := q) C2 hnd.2.1 hyd (fun e => hnull (List.mem_append_right _ e))
  have L3q : L t3 q = some n' := by rw [E3 q hqd, E2, if_pos rfl]
  have u4 := upd_ok L3q (fun m : Node K => { m with left := y.idx, right := k })
  set n'' : Node K := { n' with left := y.idx, right := k } with hn''
  have u4' : t3.upd q (fun m : Node K => { m with left := y.idx, right := k }) = .ok (t3.put q n'') := u4
  have S4 : Same t3 (t3.put q n'') := same_put L3q rfl rfl
  have E4 : ∀ j, L (t3.put q n'') j = if j = q then some n'' else L t3 j := fun j => L_put L3q n'' j
  have r4 : (t3.put q n'').root = t3.root := rfl
  generalize t3.put q n'' = t4 at *
  have L4y : L t4 y.idx = some ms := by
    rw [E4, if_neg hyq, E3 _ hyd, E2, if_neg hyq, E1 _ (hlt _ (List.mem_append_left _ (idx_mem y))), hms]
  have u5 := upd_ok L4y (fun m : Node K => { m with parent := q })
  have S5 : Same t4 (t4.put y.idx { ms with parent := q }) := same_put L4y rfl rfl
  have E5 : ∀ j, L (t4.put y.idx { ms with parent := q }) j = if j = y.idx then some { ms with parent := q } else L t4 j :=
    fun j => L_put L4y _ j
  have r5 : (t4.put y.idx { ms with parent := q }).root = t4.root := rfl
  generalize t4.put y.idx { ms with parent := q } = t5 at *
  have L5k : L t5 k = some nk := by
    rw [E5, if_neg (Ne.symm hyk), E4, if_neg hkq, E3 _ hkd, E2, if_neg hkq, E1 _ hk, hnk]
  have u6 := upd_ok L5k (fun m : Node K => { m with parent := q })
  have S6 : Same t5 (t5.put k { nk with parent := q }) := same_put L5k rfl rfl
  have E6 : ∀ j, L (t5.put k { nk with parent := q }) j = if j = k then some { nk with parent := q } else L t5 j :=
    fun j => L_put L5k _ j
  have r6 : (t5.put k { nk with parent := q }).root = t5.root := rfl
  generalize t5.put k { nk with parent := q } = t6 at *
  have Sall : Same t1 t6 := (S2.trans S3).trans ((S4.trans S5).trans S6)
  refine ⟨t6, merge lb ms.box, ms.height + 1, ?_, ⟨⟨⟨n'', ?_, rfl, hms2, rfl, rfl, rfl⟩, ?_, ?_⟩, ?_, ?_, ?_, ?_⟩, pool_same P1 Sall, ?_, ?_, ?_⟩
  · simp only [Tree.attach, get_ok hms, bind, Except.bind, a1, u2']
    simp only [hms2, a3]
    simp only [u4', u5, u6]
  · rw [E6, if_neg (Ne.symm hkq), E5, if_neg (Ne.symm hyq), E4, if_pos rfl]
  · refine rep_reparent hz.rep hnd.1 (fun j hj hne => ?_) (fun m hm => ?_)
    · have h1 : j ≠ k := fun e => hky (e ▸ hj)
      have h2 : j ≠ q := fun e => hqy (e ▸ hj)
      have h3 : j ∉ idxsC d := fun e => hnd.2.2 j hj j e rfl
      rw [E6, if_neg h1, E5, if_neg hne, E4, if_neg h2, E3 j h3, E2, if_neg h2, E1 j (hlt j (List.mem_append_left _ hj))]
    · rw [hms] at hm; cases hm
      rw [E6, if_neg hyk, E5, if_pos rfl]
  · exact ⟨{ nk with parent := q }, by rw [E6, if_pos rfl], k1, rfl, k2, k3⟩
  · refine repC_congr C3 fun j hj => ?_
    have h1 : j ≠ k := fun e => hkd (e ▸ hj)
    have h2 : j ≠ q := fun e => hqd (e ▸ hj)
    have h3 : j ≠ y.idx := fun e => hyd (e ▸ hj)
    rw [E6, if_neg h1, E5, if_neg h3, E4, if_neg h2]
  · have : ((T.node q (merge lb ms.box) (ms.height + 1) y (.leaf k lb)).idxs ++ idxsC d).Perm (q :: k :: (y.idxs ++ idxsC d)) := by
      simp only [T.idxs]; grind
    refine this.nodup_iff.2 (List.nodup_cons.2 ⟨?_, List.nodup_cons.2 ⟨hk', hz.nodup⟩⟩)
    simp only [List.mem_cons, List.mem_append, not_or]
    exact ⟨Ne.symm hkq, hqy, hqd⟩
  · simp only [T.idxs, List.cons_append, List.append_assoc, List.mem_cons, List.mem_append, List.not_mem_nil, or_false, not_or]
    simp only [List.mem_append, not_or] at hnull
    exact ⟨Ne.symm hqn, hnull.1, Ne.symm hkn, by simp, hnull.2⟩
  · rw [r6, r5, r4]
    cases d with
    | nil => exact r3 rfl
    | cons f rest => rw [r3' (by simp), r2, r1, hz.root]; rfl
  · rw [Sall.count, c1]
  · rw [Sall.map, pm1]
  · intro j hj
    rw [parts_same Sall (j + 1) j (by omega), E1 j hj]

omit [Field K] [LinearOrder K] in
theorem length_le_idxsC (c : List (Frame K)) : c.length ≤ (idxsC c).length := by
  induction c with
  | nil => simp
  | cons f rest ih => rw [idxsC_cons]; simp [Frame.idxs]; omega

omit [Field K] [LinearOrder K] in
theorem top_root {t : Tree K} {x : T K} (h : Zip t x []) : t.root = x.idx := h.root

/-- What insertion keeps. -/
structure Inv (t : Tree K) (items : List (Nat × Box K)) : Prop where
  pool : Pool t
  map : t.particleMap.map Prod.fst = items.map Prod.fst
  tree : (items = [] ∧ t.root = nullNode ∧ t.nodeCount = 0) ∨
    ∃ x, Zip t x [] ∧ x.Wf ∧ x.idxs.Perm (List.range t.nodeCount) ∧ t.nodeCount + 1 = 2 * items.length ∧
      (x.leaves.map fun p => ((L t p.1).map (·.particle), p.2)).Perm (items.map fun p => (some p.1, p.2))

omit [Field K] [LinearOrder K] in
theorem leaves_idx (x : T K) : ∀ p ∈ x.leaves, p.1 ∈ x.idxs := by
  induction x with
  | leaf i b => simp [T.leaves, T.idxs]
  | node i b h l r ihl ihr =>
    intro p hp
    simp only [T.leaves, List.mem_append] at hp
    simp only [T.idxs, List.mem_cons, List.mem_append]
    rcases hp with h | h
    · exact Or.inr (Or.inl (ihl p h))
    · exact Or.inr (Or.inr (ihr p h))

theorem insertLeaf_spec {junk : Node K} {t : Tree K} {x : T K} {k : Nat} {nk : Node K} {lb : Box K} (hz : Zip t x []) (wx : x.Wf)
    (hp : Pool t) (hc : t.nodeCount < 2147483648) (hx : x.idxs.Perm (List.range k)) (hk : t.nodeCount = k + 1)
    (hnk : L t k = some nk) (k1 : nk.box = lb) (k2 : nk.left = nullNode) (k3 : nk.height = 0) :
    ∃ t' x', t.insertLeaf junk k = .ok t' ∧ Zip t' x' [] ∧ x'.Wf ∧ Pool t' ∧ t'.nodeCount = t.nodeCount + 1 ∧
      t'.particleMap = t.particleMap ∧ Parts t t' t.nodeCount ∧ x'.idxs.Perm (List.range (k + 2)) ∧
      x'.leaves.Perm ((k, lb) :: x.leaves) := by
  have hroot := top_root hz
  have hxn : x.idx ≠ nullNode := fun e => hz.null (by rw [← e]; simp [idx_mem])
  have hlen : x.idxs.length = k := by rw [hx.length_eq, List.length_range]
  have hkl : k < t.nodes.length := by rw [hp.len]; have := hp.le; omega
  obtain ⟨y, d, s1, s2, s3, s4, s5, s6⟩ := findSibling_spec (leaf := lb) (fuel := t.nodes.length + 1) hz wx (fun _ h => by simp at h)
    (by have := depth_lt x; omega)
  have s5' : (y.idxs ++ idxsC d).Perm (List.range k) := by
    refine s5.trans ?_
    simpa [idxsC] using hx
  have hmem : ∀ j, j ∈ y.idxs ++ idxsC d ↔ j < k := fun j => by rw [s5'.mem_iff, List.mem_range]
  obtain ⟨t1, b, h, a1, z1, P1, c1, m1, pt1⟩ := attach_spec (junk := junk) s2 hp hc (fun j hj => by have := (hmem j).1 hj; omega) (by omega)
    (fun e => by have := (hmem k).1 e; omega) hnk k1 k2 k3
  have hdl := length_le_idxsC d
  have hyl : 0 < y.idxs.length := List.length_pos_of_mem (idx_mem y)
  have hsum : y.idxs.length + (idxsC d).length = k := by
    rw [← List.length_append, s5'.length_eq, List.length_range]
  have hl1 : k + 2 ≤ t1.nodes.length := by rw [P1.len]; have := P1.le; omega
  obtain ⟨t', x', f1, f2, f3, f4, f5, f6, f7⟩ := fixUp_spec (fuel := t1.nodes.length + 1) z1 s3 (by trivial) s4 (by omega)
  obtain ⟨-, -, nl, hnl, hnl1, hnl2, -, -⟩ := z1.rep
  refine ⟨t', x', ?_, f2, f3, pool_same P1 f4, by rw [f4.count, c1], by rw [f4.map, m1], pt1.trans (parts_same f4 _), ?_, ?_⟩
  · simp only [Tree.insertLeaf, hroot, hxn, if_false, get_ok hnk, bind, Except.bind, k1, s1, a1, get_ok hnl, hnl2, f1]
  · refine f5.trans ?_
    have e1 : ((T.node t.nodeCount b h y (.leaf k lb)).idxs ++ idxsC d).Perm (t.nodeCount :: k :: (y.idxs ++ idxsC d)) := by
      simp only [T.idxs]; grind
    refine e1.trans ?_
    rw [hk, List.range_succ, List.range_succ]
    have e2 : (List.range k ++ [k] ++ [k + 1]).Perm ((k + 1) :: k :: List.range k) := by grind
    exact ((s5'.cons k).cons (k + 1)).trans e2.symm
  · refine f6.trans ?_
    have s6' : (y.leaves ++ leavesC d).Perm x.leaves := by simpa [leavesC] using s6
    have e1 : ((T.node t.nodeCount b h y (.leaf k lb)).leaves ++ leavesC d).Perm ((k, lb) :: (y.leaves ++ leavesC d)) := by
      simp only [T.leaves]; grind
    exact e1.trans (s6'.cons _)

omit [Field K] [LinearOrder K] in
/-- `Rep` does not look at particles or at the free list. -/
theorem rep_links {M M' : Nat → Option (Node K)} {x : T K} {par : Nat} (h : Rep M par x)
    (hM : ∀ j n, M j = some n → ∃ n', M' j = some n' ∧ n'.box = n.box ∧ n'.parent = n.parent ∧ n'.left = n.left ∧ n'.right = n.right ∧ n'.height = n.height) :
    Rep M' par x := by
  induction x generalizing par with
  | leaf i b =>
    obtain ⟨n, h1, h2, h3, h4, h5⟩ := h
    obtain ⟨n', g1, g2, g3, g4, g5, g6⟩ := hM i n h1
    exact ⟨n', g1, g2.trans h2, g3.trans h3, g4.trans h4, g6.trans h5⟩
  | node i b hh l r ihl ihr =>
    obtain ⟨⟨n, h1, h2, h3, h4, h5, h6⟩, hl, hr⟩ := h
    obtain ⟨n', g1, g2, g3, g4, g5, g6⟩ := hM i n h1
    exact ⟨⟨n', g1, g2.trans h2, g3.trans h3, g4.trans h4, g5.trans h5, g6.trans h6⟩, ihl hl, ihr hr⟩

/-- The last steps of an insertion: the entry in the map and the particle of the node. -/
theorem finish_spec {t0 t : Tree K} {x : T K} {k p : Nat} {old : List (Nat × Box K)} {items : List (Nat × Box K)} {lb : Box K}
    (hz : Zip t x []) (wx : x.Wf) (hp : Pool t) (hk : k < t.nodeCount) (hmap : t.particleMap.map Prod.fst = items.map Prod.fst)
    (hidx : x.idxs.Perm (List.range t.nodeCount)) (hcount : t.nodeCount + 1 = 2 * (items.length + 1))
    (hleaves : x.leaves.Perm ((k, lb) :: old)) (hold : ∀ q ∈ old, q.1 < k) (hparts : Parts t0 t k)
    (hitems : (old.map fun q => ((L t0 q.1).map (·.particle), q.2)).Perm (items.map fun q => (some q.1, q.2))) :
    ∃ t', Tree.upd { t with particleMap := t.particleMap ++ [(p, k)] } k (fun m => { m with particle := p }) = .ok t' ∧
      Inv t' (items ++ [(p, lb)]) := by
  have hkx : k ∈ x.idxs := hidx.mem_iff.2 (List.mem_range.2 hk)
  have hsome := rep_all_some hz.rep k hkx
  obtain ⟨n, hn⟩ := Option.ne_none_iff_exists'.1 hsome
  set u : Tree K := { t with particleMap := t.particleMap ++ [(p, k)] } with hu
  have hnu : L u k = some n := hn
  have E : ∀ j, L (u.put k { n with particle := p }) j = if j = k then some { n with particle := p } else L t j :=
    fun j => L_put hnu _ j
  refine ⟨_, upd_ok hnu _, ⟨?_, ?_, Or.inr ⟨x, ⟨rep_links hz.rep ?_, trivial, hz.nodup, hz.null, hz.root⟩, wx, hidx, ?_, ?_⟩⟩⟩
  · refine ⟨by simp [Tree.put, hu, hp.len], hp.le, hp.pos, hp.lt, hp.free, ?_⟩
    intro j m hj hm
    have hj' : t.nodeCount ≤ j := hj
    rw [E, if_neg (by omega)] at hm
    exact hp.chain j m hj' hm
  · show (t.particleMap ++ [(p, k)]).map Prod.fst = _
    simp [hmap]
  · intro j m hm
    by_cases hj : j = k
    · subst hj
      rw [hn] at hm; cases hm
      exact ⟨{ n with particle := p }, by rw [E, if_pos rfl], rfl, rfl, rfl, rfl, rfl⟩
    · exact ⟨m, by rw [E, if_neg hj, hm], rfl, rfl, rfl, rfl, rfl⟩
  · show t.nodeCount + 1 = _
    rw [hcount]; simp
  · refine (hleaves.map _).trans ?_
    have e : (old.map fun q => ((L (u.put k { n with particle := p }) q.1).map (·.particle), q.2)) =
        old.map fun q => ((L t0 q.1).map (·.particle), q.2) := by
      refine List.map_congr_left fun q hq => ?_
      have := hold q hq
      rw [E, if_neg (by omega), hparts _ this]
    simp only [List.map_cons, E, if_true, Option.map_some, List.map_append, List.map_nil]
    have e' : (old.map fun q => ((if q.1 = k then some { n with particle := p } else L t q.1).map (·.particle), q.2)) =
        old.map fun q => ((L t0 q.1).map (·.particle), q.2) := by
      simpa only [E] using e
    rw [e']
    have := hitems.cons (some p, lb)
    refine this.trans ?_
    grind

theorem insertParticle_spec {junk : Node K} {t : Tree K} {items : List (Nat × Box K)} {p : Nat} {b : Box K} (hI : Inv t items)
    (hp : p ∉ items.map Prod.fst) (hb : Spec.Ordered b) (hn : items.length < 1073741824) :
    ∃ t', t.insertParticle junk p b = .ok t' ∧ Inv t' (items ++ [(p, b)]) := by
  have hc : t.nodeCount + 1 < 2147483648 := by
    rcases hI.tree with ⟨-, -, h⟩ | ⟨x, -, -, -, h, -⟩ <;> omega
  have hany : t.particleMap.any (fun e => e.1 == p) = false := by
    rw [List.any_eq_false]
    intro e he
    simp only [beq_iff_eq]
    intro heq
    refine hp ?_
    rw [← hI.map, ← heq]
    exact List.mem_map_of_mem he
  obtain ⟨t1, n, a1, P1, c1, r1, pm1, L1, n1, n2, n3, n4, E1⟩ := allocate_spec (junk := junk) hI.pool (show t.nodeCount < 2147483648 by omega)
  set k := t.nodeCount with hk
  have hord : ¬(b.lower.x > b.upper.x ∨ b.lower.y > b.upper.y ∨ b.lower.z > b.upper.z) := by
    obtain ⟨h1, h2, h3⟩ := hb
    simp only [gt_iff_lt, not_or, not_lt]
    exact ⟨h1, h2, h3⟩
  set n' : Node K := { n with box := b, height := 0 } with hn'
  have u2 : t1.upd k (fun m : Node K => { m with box := b, height := 0 }) = .ok (t1.put k n') := upd_ok L1 _
  have S2 : Same t1 (t1.put k n') := same_put L1 rfl rfl
  have E2 : ∀ j, L (t1.put k n') j = if j = k then some n' else L t1 j := fun j => L_put L1 n' j
  have r2 : (t1.put k n').root = t1.root := rfl
  generalize t1.put k n' = t2 at *
  have P2 := pool_same P1 S2
  have L2k : L t2 k = some n' := by rw [E2, if_pos rfl]
  have cnt2 : t2.nodeCount = k + 1 := by rw [S2.count, c1]
  have map2 : t2.particleMap.map Prod.fst = items.map Prod.fst := by rw [S2.map, pm1, hI.map]
  have parts2 : Parts t t2 k := fun j hj => by rw [E2, if_neg (by omega), E1 j hj]
  rcases hI.tree with ⟨rfl, hroot, hcnt⟩ | ⟨x, hz, wx, hidx, hcnt, hpt⟩
  · have hk0 : k = 0 := hcnt
    set n3 : Node K := { n' with parent := nullNode } with hn3
    set t2' : Tree K := { t2 with root := k } with ht2'
    have L2' : L t2' k = some n' := L2k
    have u3 : t2'.upd k (fun m : Node K => { m with parent := nullNode }) = .ok (t2'.put k n3) := upd_ok L2' _
    have S3 : Same t2' (t2'.put k n3) := same_put L2' rfl rfl
    have E3 : ∀ j, L (t2'.put k n3) j = if j = k then some n3 else L t2' j := fun j => L_put L2' n3 j
    have P2' : Pool t2' := ⟨P2.len, P2.le, P2.pos, P2.lt, P2.free, P2.chain⟩
    have r3 : (t2'.put k n3).root = k := rfl
    generalize t2'.put k n3 = t3 at *
    have P3 := pool_same P2' S3
    have L3k : L t3 k = some n3 := by rw [E3, if_pos rfl]
    have cnt3 : t3.nodeCount = k + 1 := by rw [S3.count]; exact cnt2
    obtain ⟨t', f1, f2⟩ := finish_spec (t0 := t) (t := t3) (x := .leaf k b) (k := k) (p := p) (old := []) (items := []) (lb := b)
      ⟨⟨n3, L3k, rfl, rfl, n2, rfl⟩, trivial, by simp [T.idxs, idxsC], by simp [T.idxs, idxsC, hk0, nullNode], r3⟩ trivial P3
      (by omega) (by rw [S3.map]; exact map2) (by rw [cnt3, hk0]; exact List.Perm.refl _) (by rw [cnt3, hk0]; rfl)
      (List.Perm.refl _) (by simp) (fun j hj => by omega) (by simp)
    refine ⟨t', ?_, f2⟩
    simp only [Tree.insertParticle, hany, Bool.false_eq_true, if_false, bind, Except.bind, a1, hord, u2, Tree.insertLeaf, r2, r1, hroot, if_true]
    simp only [← ht2', u3]
    exact f1
  · have hz2 : Zip t2 x [] := by
      refine ⟨rep_congr hz.rep fun j hj => ?_, trivial, hz.nodup, hz.null, by rw [r2, r1, hz.root]⟩
      have := List.mem_range.1 (hidx.mem_iff.1 hj)
      rw [E2, if_neg (by omega), E1 j this]
    obtain ⟨t3, x', g1, g2, g3, g4, g5, g6, g7, g8, g9⟩ := insertLeaf_spec (junk := junk) hz2 wx P2 (by omega) hidx cnt2 L2k rfl n2 rfl
    obtain ⟨t', f1, f2⟩ := finish_spec (t0 := t) (p := p) (items := items) g2 g3 g4 (show k < t3.nodeCount by omega) (by rw [g6]; exact map2)
      (by rw [g5, cnt2]; exact g8) (by rw [g5, cnt2]; omega) g9
      (fun q hq => List.mem_range.1 (hidx.mem_iff.1 (leaves_idx x q hq))) (parts2.trans (fun j hj => g7 j (by omega))) hpt
    refine ⟨t', ?_, f2⟩
    simp only [Tree.insertParticle, hany, Bool.false_eq_true, if_false, bind, Except.bind, a1, hord, u2]
    have g1' : Tree.insertLeaf junk t2 k = .ok t3 := g1
    rw [g1']
    exact f1

theorem insertAll_spec {junk : Node K} (boxes : List (Box K)) (i : Nat) (t : Tree K) (items : List (Nat × Box K)) (hI : Inv t items)
    (hi : ∀ q ∈ items, q.1 < i) (hb : ∀ b ∈ boxes, Spec.Ordered b) (hn : items.length + boxes.length ≤ 1073741824) :
    ∃ t', Tree.insertAll junk boxes i t = .ok t' ∧ Inv t' (items ++ (boxes.zipIdx i).map fun q => (q.2, q.1)) := by
  induction boxes generalizing i t items with
  | nil => exact ⟨t, rfl, by simpa using hI⟩
  | cons b rest ih =>
    simp only [List.length_cons] at hn
    obtain ⟨t1, g1, g2⟩ := insertParticle_spec (junk := junk) (p := i) (b := b) hI (fun e => by
      obtain ⟨q, hq, rfl⟩ := List.mem_map.1 e
      exact absurd (hi q hq) (lt_irrefl _)) (hb b (by simp)) (by omega)
    obtain ⟨t', f1, f2⟩ := ih (i + 1) t1 (items ++ [(i, b)]) g2 (fun q hq => by
      rcases List.mem_append.1 hq with h | h
      · have := hi q h; omega
      · simp at h; simp [h]) (fun q hq => hb q (by simp [hq])) (by simp; omega)
    refine ⟨t', by simp only [Tree.insertAll, g1, f1], ?_⟩
    simpa [List.zipIdx_cons] using f2

theorem build_spec (junk : Node K) (boxes : List (Box K)) (hb : ∀ b ∈ boxes, Spec.Ordered b) (hn : boxes.length ≤ 1073741824) :
    ∃ t, Tree.build junk boxes = .ok t ∧ Inv t ((boxes.zipIdx).map fun q => (q.2, q.1)) := by
  have hI : Inv (Tree.new junk) [] := ⟨pool_new junk, rfl, Or.inl ⟨rfl, rfl, rfl⟩⟩
  obtain ⟨t, h1, h2⟩ := insertAll_spec (junk := junk) boxes 0 _ [] hI (by simp) hb (by simpa using hn)
  exact ⟨t, h1, by simpa using h2⟩

/-! ## Searching -/

/-- What the search finds below a node. -/
def collect (M : Nat → Option (Node K)) (test : Box K → Bool) : T K → List Nat
  | .leaf i b => if test b then ((M i).map (·.particle)).toList else []
  | .node _ b _ l r => if test b then collect M test r ++ collect M test l else []

/-- All boxes of the tree are ordered. -/
def OrdT : T K → Prop
  | .leaf _ b => Spec.Ordered b
  | .node _ b _ l r => Spec.Ordered b ∧ OrdT l ∧ OrdT r

theorem merge_ordered {a b : Box K} (ha : Spec.Ordered a) (hb : Spec.Ordered b) : Spec.Ordered (merge a b) := by
  obtain ⟨a1, a2, a3⟩ := ha
  refine ⟨?_, ?_, ?_⟩
  · exact (min_le_left _ _).trans (a1.trans (le_max_left _ _))
  · exact (min_le_left _ _).trans (a2.trans (le_max_left _ _))
  · exact (min_le_left _ _).trans (a3.trans (le_max_left _ _))

theorem le_merge_left (a b : Box K) : Spec.BoxLe a (merge a b) := by
  rintro q ⟨⟨x1, x2⟩, ⟨y1, y2⟩, z1, z2⟩
  refine ⟨⟨?_, ?_⟩, ⟨?_, ?_⟩, ?_, ?_⟩ <;> simp only [merge, min_le_iff, le_max_iff, *, true_or]

theorem le_merge_right (a b : Box K) : Spec.BoxLe b (merge a b) := by
  rw [merge_comm]; exact le_merge_left b a

omit [Field K] in
theorem ord_box {x : T K} (h : OrdT x) : Spec.Ordered x.box := by
  cases x with
  | leaf i b => exact h
  | node i b hh l r => exact h.1

theorem ordT_of {x : T K} (hw : x.Wf) (h : ∀ p ∈ x.leaves, Spec.Ordered p.2) : OrdT x := by
  induction x with
  | leaf i b => exact h (i, b) (by simp [T.leaves])
  | node i b hh l r ihl ihr =>
    obtain ⟨w1, -, w3, w4⟩ := hw
    have hl := ihl w3 (fun p hp => h p (by simp [T.leaves, hp]))
    have hr := ihr w4 (fun p hp => h p (by simp [T.leaves, hp]))
    exact ⟨by rw [w1]; exact merge_ordered (ord_box hl) (ord_box hr), hl, hr⟩

omit [Field K] in
theorem mk_ordered {b : Box K} (h : Spec.Ordered b) : mk? b.lower b.upper = some b := by
  obtain ⟨h1, h2, h3⟩ := h
  simp only [mk?, gt_iff_lt, not_lt.2 h1, not_lt.2 h2, not_lt.2 h3, if_false]

omit [Field K] in
theorem queryLoop_spec {t : Tree K} {test : Box K → Bool} (fuel : Nat) (ts : List (T K)) (acc : List Nat)
    (hrep : ∀ x ∈ ts, ∃ par, Rep (L t) par x) (hord : ∀ x ∈ ts, OrdT x) (hnull : ∀ x ∈ ts, nullNode ∉ x.idxs)
    (hf : (ts.flatMap T.idxs).length ≤ fuel) :
    t.queryLoop test fuel (ts.map T.idx) acc = .ok (acc ++ ts.flatMap (collect (L t) test)) := by
  induction fuel generalizing ts acc with
  | zero =>
    cases ts with
    | nil => simp [Tree.queryLoop]
    | cons x rest =>
      have := List.length_pos_of_mem (idx_mem x)
      simp only [List.flatMap_cons, List.length_append] at hf
      omega
  | succ fuel ih =>
    cases ts with
    | nil => simp [Tree.queryLoop]
    | cons x rest =>
      obtain ⟨par, hx⟩ := hrep x (by simp)
      have ox := hord x (by simp)
      have nx := hnull x (by simp)
      have hrest := fun acc => ih rest acc (fun y hy => hrep y (by simp [hy])) (fun y hy => hord y (by simp [hy]))
        (fun y hy => hnull y (by simp [hy]))
      have hxl := List.length_pos_of_mem (idx_mem x)
      simp only [List.flatMap_cons, List.length_append] at hf
      have hxn : x.idx ≠ nullNode := fun e => nx (e ▸ idx_mem x)
      cases x with
      | leaf i b =>
        obtain ⟨n, n1, n2, n3, n4, n5⟩ := hx
        simp only [idx_leaf] at hxn
        simp only [T.idxs, List.length_singleton] at hf
        have hm : mk? n.box.lower n.box.upper = some b := by rw [n2]; exact mk_ordered ox
        simp only [List.map_cons, idx_leaf, Tree.queryLoop, get_ok n1, hm, hxn, if_false, Node.isLeaf, n4, beq_self_eq_true,
          if_true, List.flatMap_cons, collect, n1, Option.map_some, Option.toList_some]
        split_ifs with ht
        · rw [hrest _ (by omega)]; simp
        · rw [hrest _ (by omega)]; simp
      | node i b h l r =>
        obtain ⟨⟨n, n1, n2, n3, n4, n5, n6⟩, hl, hr⟩ := hx
        simp only [idx_node] at hxn
        have hln : l.idx ≠ nullNode := fun e => nx (by rw [← e]; simp [T.idxs, idx_mem])
        have hm : mk? n.box.lower n.box.upper = some b := by rw [n2]; exact mk_ordered (ord_box ox)
        simp only [T.idxs, List.length_cons, List.length_append] at hf
        simp only [List.map_cons, idx_node, Tree.queryLoop, get_ok n1, hm, hxn, if_false, isLeaf_node n4 hln, Bool.false_eq_true,
          n4, n5, List.flatMap_cons, collect]
        split_ifs with ht
        · have := ih (r :: l :: rest) acc (by
            intro y hy
            simp only [List.mem_cons] at hy
            rcases hy with rfl | rfl | hy
            · exact ⟨_, hr⟩
            · exact ⟨_, hl⟩
            · exact hrep y (by simp [hy])) (by
            intro y hy
            simp only [List.mem_cons] at hy
            rcases hy with rfl | rfl | hy
            · exact ox.2.2
            · exact ox.2.1
            · exact hord y (by simp [hy])) (by
            intro y hy
            simp only [List.mem_cons] at hy
            simp only [T.idxs, List.mem_cons, List.mem_append, not_or] at nx
            rcases hy with rfl | rfl | hy
            · exact nx.2.2
            · exact nx.2.1
            · exact hnull y (by simp [hy])) (by simp only [List.flatMap_cons, List.length_append]; omega)
          simp only [List.map_cons] at this
          rw [this]
          simp
        · rw [hrest _ (by omega)]; simp

omit [Field K] [LinearOrder K] in
theorem collect_sound {M : Nat → Option (Node K)} {test : Box K → Bool} {x : T K} {v : Nat} (h : v ∈ collect M test x) :
    ∃ p ∈ x.leaves, (M p.1).map (·.particle) = some v ∧ test p.2 = true := by
  induction x with
  | leaf i b =>
    simp only [collect] at h
    split_ifs at h with ht
    · exact ⟨(i, b), by simp [T.leaves], by simpa using h, ht⟩
    · simp at h
  | node i b hh l r ihl ihr =>
    simp only [collect] at h
    split_ifs at h with ht
    · rcases List.mem_append.1 h with h | h
      · obtain ⟨p, h1, h2⟩ := ihr h
        exact ⟨p, by simp [T.leaves, h1], h2⟩
      · obtain ⟨p, h1, h2⟩ := ihl h
        exact ⟨p, by simp [T.leaves, h1], h2⟩
    · simp at h

omit [Field K] [LinearOrder K] in
theorem collect_subperm {M : Nat → Option (Node K)} {test : Box K → Bool} (x : T K) :
    ((collect M test x).map some).Subperm (x.leaves.map fun p => (M p.1).map (·.particle)) := by
  induction x with
  | leaf i b =>
    simp only [collect, T.leaves]
    split_ifs
    · cases h : M i with
      | none => simp
      | some n => simp [h]
    · simp
  | node i b hh l r ihl ihr =>
    simp only [collect, T.leaves]
    split_ifs
    · simp only [List.map_append]
      obtain ⟨l1, p1, s1⟩ := ihl
      obtain ⟨l2, p2, s2⟩ := ihr
      exact ⟨l1 ++ l2, (p1.append p2).trans List.perm_append_comm, s1.append s2⟩
    · simp

/-- A property of boxes that passes to larger boxes. -/
def Upward (P : Box K → Prop) : Prop := ∀ a b, Spec.Ordered a → Spec.Ordered b → Spec.BoxLe a b → P a → P b

theorem upward_root {P : Box K → Prop} (hP : Upward P) {x : T K} (hw : x.Wf) (ho : OrdT x) {p : Nat × Box K} (hp : p ∈ x.leaves)
    (h : P p.2) : P x.box := by
  induction x with
  | leaf i b =>
    simp only [T.leaves, List.mem_singleton] at hp
    subst hp; exact h
  | node i b hh l r ihl ihr =>
    obtain ⟨w1, -, w3, w4⟩ := hw
    obtain ⟨o1, o2, o3⟩ := ho
    show P b
    rcases List.mem_append.1 hp with hp | hp
    · exact hP _ _ (ord_box o2) o1 (by rw [w1]; exact le_merge_left _ _) (ihl w3 o2 hp)
    · exact hP _ _ (ord_box o3) o1 (by rw [w1]; exact le_merge_right _ _) (ihr w4 o3 hp)

theorem collect_complete {M : Nat → Option (Node K)} {test : Box K → Bool} {P : Box K → Prop} (hP : Upward P)
    (hPt : ∀ b, Spec.Ordered b → P b → test b = true) {x : T K} (hw : x.Wf) (ho : OrdT x) {p : Nat × Box K} {v : Nat}
    (hp : p ∈ x.leaves) (hv : (M p.1).map (·.particle) = some v) (h : P p.2) : v ∈ collect M test x := by
  induction x with
  | leaf i b =>
    simp only [T.leaves, List.mem_singleton] at hp
    subst hp
    simp only [collect, hPt b ho h, if_true]
    simp at hv
    simp [hv]
  | node i b hh l r ihl ihr =>
    have hroot : P b := upward_root hP hw ho hp h
    obtain ⟨w1, -, w3, w4⟩ := hw
    obtain ⟨o1, o2, o3⟩ := ho
    simp only [collect, hPt b o1 hroot, if_true, List.mem_append]
    rcases List.mem_append.1 hp with hp | hp
    · exact Or.inr (ihl w3 o2 hp)
    · exact Or.inl (ihr w4 o3 hp)

/-- The search: sound, complete, without duplicates. -/
theorem query_spec (junk : Node K) (boxes : List (Box K)) (hne : boxes ≠ []) (hb : ∀ b ∈ boxes, Spec.Ordered b)
    (hn : boxes.length ≤ 1073741824) (test : Box K → Bool) :
    ∃ t ids, Tree.build junk boxes = .ok t ∧ t.query test = .ok ids ∧ ids.Nodup ∧
      (∀ i ∈ ids, ∃ h : i < boxes.length, test boxes[i] = true) ∧
      ∀ P : Box K → Prop, Upward P → (∀ b, Spec.Ordered b → P b → test b = true) →
        ∀ i, ∀ h : i < boxes.length, P boxes[i] → i ∈ ids := by
  obtain ⟨t, h1, hI⟩ := build_spec junk boxes hb hn
  rcases hI.tree with ⟨he, -⟩ | ⟨x, hz, wx, hidx, hcnt, hpt⟩
  · exact absurd he (by simpa using hne)
  · have hpt' : (x.leaves.map fun p => ((L t p.1).map (·.particle), p.2)).Perm (boxes.zipIdx.map fun p => (some p.2, p.1)) := by
      simpa [List.map_map, Function.comp_def] using hpt
    have hmem : ∀ p ∈ x.leaves, ∃ i, ∃ h : i < boxes.length, (L t p.1).map (·.particle) = some i ∧ p.2 = boxes[i] := by
      intro p hp
      have := hpt'.mem_iff.1 (List.mem_map_of_mem hp)
      obtain ⟨q, hq, e⟩ := List.mem_map.1 this
      simp only [Prod.mk.injEq] at e
      obtain ⟨-, h2, h3⟩ := List.mem_zipIdx (k := 0) (by simpa using hq)
      exact ⟨q.2, by omega, e.1.symm, by rw [← e.2, h3]; simp⟩
    have hmem' : ∀ i, ∀ h : i < boxes.length, ∃ p ∈ x.leaves, (L t p.1).map (·.particle) = some i ∧ p.2 = boxes[i] := by
      intro i h
      have : (some i, boxes[i]) ∈ boxes.zipIdx.map fun p => (some p.2, p.1) :=
        List.mem_map.2 ⟨(boxes[i], i), by simp [List.mem_zipIdx_iff_getElem?, h], rfl⟩
      obtain ⟨p, hp, e⟩ := List.mem_map.1 (hpt'.mem_iff.2 this)
      simp only [Prod.mk.injEq] at e
      exact ⟨p, hp, e.1, e.2⟩
    have ho : OrdT x := ordT_of wx fun p hp => by
      obtain ⟨i, h, -, e⟩ := hmem p hp
      rw [e]; exact hb _ (List.getElem_mem h)
    have hq := queryLoop_spec (t := t) (test := test) (t.nodes.length + 1) [x] [] (fun y hy => by
        rw [List.mem_singleton] at hy; subst hy; exact ⟨_, hz.rep⟩) (fun y hy => by
        rw [List.mem_singleton] at hy; subst hy; exact ho) (fun y hy => by
        rw [List.mem_singleton] at hy; subst hy; exact fun e => hz.null (List.mem_append_left _ e)) (by
        simp only [List.flatMap_cons, List.flatMap_nil, List.append_nil, hidx.length_eq, List.length_range, hI.pool.len]
        have := hI.pool.le
        omega)
    refine ⟨t, collect (L t) test x, h1, ?_, ?_, ?_, ?_⟩
    · rw [Tree.query, top_root hz]
      simpa using hq
    · have hs := collect_subperm (M := L t) (test := test) x
      have hp2 := hpt'.map Prod.fst
      simp only [List.map_map, Function.comp_def] at hp2
      have : ((boxes.zipIdx).map fun p => (some p.2 : Option Nat)).Nodup := by
        have h3 : ((boxes.zipIdx).map fun p => (some p.2 : Option Nat)) = ((boxes.zipIdx).map Prod.snd).map some := by
          rw [List.map_map]; rfl
        rw [h3, List.zipIdx_map_snd]
        exact List.Nodup.map (fun a b h => by simpa using h) List.nodup_range'
      obtain ⟨l, hl1, hl2⟩ := hs
      have h4 : ((collect (L t) test x).map some).Nodup := hl1.nodup_iff.1 (hl2.nodup (hp2.nodup_iff.2 this))
      exact List.Nodup.of_map _ h4
    · intro i hi
      obtain ⟨p, hp, hv, ht⟩ := collect_sound hi
      obtain ⟨j, hj, e1, e2⟩ := hmem p hp
      rw [e1] at hv
      simp only [Option.some.injEq] at hv
      subst hv
      exact ⟨hj, by rw [← e2]; exact ht⟩
    · intro P hP hPt i hi hPi
      obtain ⟨p, hp, e1, e2⟩ := hmem' i hi
      exact collect_complete hP hPt wx ho hp e1 (by rw [e2]; exact hPi)

/-- A box with a lower bound above the upper bound is refused. -/
theorem insertParticle_bad {junk : Node K} {t : Tree K} {items : List (Nat × Box K)} {p : Nat} {b : Box K} (hI : Inv t items)
    (hb : ¬ Spec.Ordered b) (hn : items.length < 1073741824) : t.insertParticle junk p b = .error .error := by
  have hc : t.nodeCount < 2147483648 := by
    rcases hI.tree with ⟨-, -, h⟩ | ⟨x, -, -, -, h, -⟩ <;> omega
  obtain ⟨t1, n, a1, -⟩ := allocate_spec (junk := junk) hI.pool hc
  have hord : b.lower.x > b.upper.x ∨ b.lower.y > b.upper.y ∨ b.lower.z > b.upper.z := by
    by_contra h
    simp only [gt_iff_lt, not_or, not_lt] at h
    exact hb h
  simp only [Tree.insertParticle]
  split_ifs with h
  · rfl
  · simp only [bind, Except.bind, a1, hord, if_true]

theorem insertAll_bad {junk : Node K} (boxes : List (Box K)) (i : Nat) (t : Tree K) (items : List (Nat × Box K)) (hI : Inv t items)
    (hi : ∀ q ∈ items, q.1 < i) (hb : ∃ b ∈ boxes, ¬ Spec.Ordered b) (hn : items.length + boxes.length ≤ 1073741824) :
    Tree.insertAll junk boxes i t = .error .error := by
  induction boxes generalizing i t items with
  | nil => simp at hb
  | cons b rest ih =>
    simp only [List.length_cons] at hn
    by_cases h : Spec.Ordered b
    · obtain ⟨t1, g1, g2⟩ := insertParticle_spec (junk := junk) (p := i) (b := b) hI (fun e => by
        obtain ⟨q, hq, rfl⟩ := List.mem_map.1 e
        exact absurd (hi q hq) (lt_irrefl _)) h (by omega)
      simp only [Tree.insertAll, g1]
      refine ih (i + 1) t1 (items ++ [(i, b)]) g2 (fun q hq => ?_) ?_ (by simp; omega)
      · rcases List.mem_append.1 hq with h | h
        · have := hi q h; omega
        · simp at h; simp [h]
      · obtain ⟨c, hc, hc'⟩ := hb
        rcases List.mem_cons.1 hc with rfl | hc
        · exact absurd h hc'
        · exact ⟨c, hc, hc'⟩
    · simp only [Tree.insertAll, insertParticle_bad hI h (show items.length < 1073741824 by omega)]

/-! ## The stored nodes -/

/-- Every inner node of the tree refers to two children that refer back to it and holds their common box. -/
theorem rep_nodes {M : Nat → Option (Node K)} {x : T K} {par : Nat} (h : Rep M par x) (hw : x.Wf) (hnull : nullNode ∉ x.idxs) :
    ∀ j ∈ x.idxs, ∃ n, M j = some n ∧ (n.isLeaf = true ∧ n.height = 0 ∨ n.isLeaf = false ∧ ∃ l r, M n.left = some l ∧ M n.right = some r ∧
      n.left ∈ x.idxs ∧ n.right ∈ x.idxs ∧ l.parent = j ∧ r.parent = j ∧ n.box = merge l.box r.box ∧ n.height = 1 + max l.height r.height) := by
  induction x generalizing par with
  | leaf i b =>
    intro j hj
    obtain ⟨n, h1, h2, h3, h4, h5⟩ := h
    simp only [T.idxs, List.mem_singleton] at hj
    subst hj
    exact ⟨n, h1, Or.inl ⟨by simp [Node.isLeaf, h4], h5⟩⟩
  | node i b hh l r ihl ihr =>
    intro j hj
    obtain ⟨⟨n, h1, h2, h3, h4, h5, h6⟩, hl, hr⟩ := h
    obtain ⟨w1, w2, w3, w4⟩ := hw
    have hln : l.idx ≠ nullNode := fun e => hnull (by rw [← e]; simp [T.idxs, idx_mem])
    simp only [T.idxs, List.mem_cons, List.mem_append, not_or] at hj hnull
    rcases hj with rfl | hj | hj
    · obtain ⟨ml, hml, hml1, hml2, hml3⟩ := rep_some hl
      obtain ⟨mr, hmr, hmr1, hmr2, hmr3⟩ := rep_some hr
      refine ⟨n, h1, Or.inr ⟨isLeaf_node h4 hln, ml, mr, by rw [h4, hml], by rw [h5, hmr], ?_, ?_, hml2, hmr2, ?_, ?_⟩⟩
      · rw [h4]; simp [T.idxs, idx_mem]
      · rw [h5]; simp [T.idxs, idx_mem]
      · rw [h2, w1, hml1, hmr1]
      · rw [h6, w2, hml3, hmr3]
    · obtain ⟨m, a1, a2⟩ := ihl hl w3 hnull.2.1 j hj
      refine ⟨m, a1, a2.imp id ?_⟩
      rintro ⟨b1, p, q, b2, b3, b4, b5, b6⟩
      exact ⟨b1, p, q, b2, b3, by simp [T.idxs, b4], by simp [T.idxs, b5], b6⟩
    · obtain ⟨m, a1, a2⟩ := ihr hr w4 hnull.2.2 j hj
      refine ⟨m, a1, a2.imp id ?_⟩
      rintro ⟨b1, p, q, b2, b3, b4, b5, b6⟩
      exact ⟨b1, p, q, b2, b3, by simp [T.idxs, b4], by simp [T.idxs, b5], b6⟩

end QuESo.AABBTree
