import Verif.Proofs.Kratos

/-!
# Lemmas about conditions by bounding boxes
-/
namespace QuESo.Kratos
open QuESo.MeshUtil QuESo.TriRule QuESo.BSpline QuESo.Spec QuESo.KratosSpec
variable {K : Type} [Field K] [LinearOrder K]

theorem isInside_iff (b : Box K) (p : V3 K) : isInside b p = true ↔ StrictlyIn b p := by
  simp [isInside, StrictlyIn, and_assoc]

/-- The nodes with new loads at the given ids. -/
def setLoads (f : V3 K) (ids : List Nat) (ns : List (Node K)) : List (Node K) := ns.map fun n => if n.id ∈ ids then { n with load := f } else n

theorem setLoads_ids (f : V3 K) (ids : List Nat) (ns : List (Node K)) : (setLoads f ids ns).map Node.id = ns.map Node.id := by
  unfold setLoads
  rw [List.map_map]
  refine List.map_congr_left fun n _ => ?_
  simp only [Function.comp_apply]
  split <;> rfl

theorem setLoads_cons (f : V3 K) (a : Nat) (ids : List Nat) (ns : List (Node K)) :
    setLoads f ids (setLoads f [a] ns) = setLoads f (a :: ids) ns := by
  unfold setLoads
  rw [List.map_map]
  refine List.map_congr_left fun n _ => ?_
  simp only [Function.comp_apply, List.mem_singleton, List.mem_cons]
  by_cases h : n.id = a
  · by_cases h' : a ∈ ids <;> simp [h, h']
  · simp [h]

/-- The condition of a point load, with the id 0. -/
def pointCond (node : Nat) : Cond K := ⟨"PointLoadCondition3D1N", 0, .nodes [node], .unset, none⟩

theorem pointLoads_eq (f : V3 K) (first : Nat) : ∀ (ids : List Nat) (j : Nat) (mp : ModelPart K), Numbered mp.conditions →
    (∀ i ∈ ids, i ∈ mp.nodes.map Node.id) → first + j = mp.conditions.length + 1 →
    (ids.zipIdx j).foldlM (fun mp q => pointLoad f (first + q.2) q.1 mp) mp =
      some { ext mp (ids.map pointCond) with nodes := setLoads f ids mp.nodes }
  | [], j, mp, _, _, _ => by
    simp only [List.zipIdx_nil, List.foldlM_nil, List.map_nil, ext_nil]
    have : setLoads f [] mp.nodes = mp.nodes := by simp [setLoads]
    rw [this]
    rfl
  | a :: ids, j, mp, h, hk, hj => by
    rw [List.zipIdx_cons, List.foldlM_cons]
    have e : pointLoad f (first + j) a mp = some { ext mp [pointCond a] with nodes := setLoads f [a] mp.nodes } := by
      unfold pointLoad
      rw [create_next (c := ⟨"PointLoadCondition3D1N", first + j, .nodes [a], .unset, none⟩) h hj (by
        intro i hi
        obtain rfl := List.mem_singleton.1 hi
        obtain ⟨n, hn, e⟩ := List.mem_map.1 (hk i (by simp))
        exact ⟨n, hn, e⟩)]
      simp only [Option.map_some]
      congr 1
      simp only [ext, number, pointCond, setLoads, List.mem_singleton]
    simp only [e]
    change List.foldlM _ _ _ = _
    have hn1 := ext_numbered h [(pointCond a : Cond K)]
    rw [pointLoads_eq f first ids (j + 1) { ext mp [pointCond a] with nodes := setLoads f [a] mp.nodes } hn1 (by
      intro i hi
      rw [setLoads_ids]
      exact hk i (by simp [hi])) (by
        have : (ext mp [(pointCond a : Cond K)]).conditions.length = mp.conditions.length + 1 := ext_length _ _
        change _ = (ext mp [(pointCond a : Cond K)]).conditions.length + 1
        omega)]
    congr 1
    have e2 := ext_ext mp [(pointCond a : Cond K)] (ids.map pointCond)
    simp only [ext, List.map_cons, List.cons_append, List.nil_append] at e2 ⊢
    rw [setLoads_cons]
    congr 1
    exact congrArg ModelPart.conditions e2

/-- The ids of the nodes in the box. -/
def insideIds (b : Box K) (mp : ModelPart K) : List Nat := (mp.nodes.filter fun n => isInside b n.pos).map Node.id

theorem insideIds_mem {b : Box K} {mp : ModelPart K} (ho : OrderedNodes mp) {n : Node K} (hn : n ∈ mp.nodes) :
    n.id ∈ insideIds b mp ↔ StrictlyIn b n.pos := by
  rw [← isInside_iff]
  unfold insideIds
  constructor
  · intro h
    obtain ⟨n', hn', e⟩ := List.mem_map.1 h
    obtain ⟨hm, hi⟩ := List.mem_filter.1 hn'
    have : n' = n := by
      have hnd : (mp.nodes.map Node.id).Nodup := ho.imp fun h => ne_of_lt h
      exact List.inj_on_of_nodup_map hnd hm hn e
    rwa [← this]
  · intro h
    exact List.mem_map.2 ⟨n, List.mem_filter.2 ⟨hn, h⟩, rfl⟩

theorem neumann_eq {b : Box K} {force : V3 K} {mp : ModelPart K} (h : Numbered mp.conditions) (hne : insideIds b mp ≠ []) :
    neumann b force mp = some { ext mp ((insideIds b mp).map pointCond) with
      nodes := setLoads ⟨force.x / (insideIds b mp).length, force.y / (insideIds b mp).length, force.z / (insideIds b mp).length⟩
        (insideIds b mp) mp.nodes } := by
  unfold neumann
  have e : ((mp.nodes.filter fun n => isInside b n.pos).map Node.id) = insideIds b mp := rfl
  simp only [e]
  rw [if_neg hne]
  exact pointLoads_eq _ _ (insideIds b mp) 0 mp h (by
    intro i hi
    obtain ⟨n, hn, rfl⟩ := List.mem_map.1 hi
    exact List.mem_map.2 ⟨n, (List.mem_filter.1 hn).1, rfl⟩) (by omega)

theorem find_setLoads (f : V3 K) (ids : List Nat) (i : Nat) : ∀ (ns : List (Node K)), (setLoads f ids ns).find? (fun n => decide (n.id = i)) =
    (ns.find? fun n => decide (n.id = i)).map fun n => if n.id ∈ ids then { n with load := f } else n
  | [] => rfl
  | n :: ns => by
    unfold setLoads
    rw [List.map_cons, List.find?_cons, List.find?_cons]
    have hid : (if n.id ∈ ids then ({ n with load := f } : Node K) else n).id = n.id := by split <;> rfl
    rw [hid]
    cases hd : decide (n.id = i) with
    | true => rfl
    | false => exact find_setLoads f ids i ns

theorem find_some {ns : List (Node K)} {i : Nat} (h : i ∈ ns.map Node.id) : ∃ n ∈ ns, n.id = i ∧ ns.find? (fun n => decide (n.id = i)) = some n := by
  cases hf : ns.find? (fun n => decide (n.id = i)) with
  | none =>
    obtain ⟨n, hn, e⟩ := List.mem_map.1 h
    have := List.find?_eq_none.1 hf n hn
    simp [e] at this
  | some n => exact ⟨n, List.mem_of_find?_eq_some hf, by simpa using List.find?_some hf, rfl⟩

theorem find_rel {R : Node K → Node K → Prop} (hR : ∀ n n', R n n' → n'.id = n.id) (i : Nat) : ∀ {ns ns' : List (Node K)}, List.Forall₂ R ns ns' →
    (ns.find? (fun n => decide (n.id = i)) = none ∧ ns'.find? (fun n => decide (n.id = i)) = none) ∨
    ∃ n n', n ∈ ns ∧ n.id = i ∧ R n n' ∧ ns.find? (fun n => decide (n.id = i)) = some n ∧ ns'.find? (fun n => decide (n.id = i)) = some n'
  | _, _, .nil => .inl ⟨rfl, rfl⟩
  | n :: ns, n' :: ns', .cons h t => by
    rw [List.find?_cons, List.find?_cons, hR n n' h]
    by_cases hd : n.id = i
    · rw [decide_eq_true hd]
      exact .inr ⟨n, n', by simp, hd, h, rfl, rfl⟩
    · rw [decide_eq_false hd]
      rcases find_rel hR i t with g | ⟨a, a', g1, g2, g3, g4, g5⟩
      · exact .inl g
      · exact .inr ⟨a, a', by simp [g1], g2, g3, g4, g5⟩

theorem mapM_congr {α β : Type _} {f g : α → Option β} : ∀ {l : List α}, (∀ a ∈ l, f a = g a) → l.mapM f = l.mapM g
  | [], _ => rfl
  | a :: l, h => by rw [List.mapM_cons, List.mapM_cons, h a (by simp), mapM_congr fun b hb => h b (by simp [hb])]

theorem force_pointCond {mp : ModelPart K} {ns : List (Node K)} {ids : List Nat} {f : V3 K} (hns : mp.nodes = setLoads f ids ns) {j : Nat}
    (hj : j ∈ ids) (hj' : j ∈ ns.map Node.id) (i : Nat) : forceOf mp { (pointCond j : Cond K) with id := i } = some f := by
  obtain ⟨n, hn, e, hfind⟩ := find_some hj'
  unfold forceOf pointCond
  simp only [String.reduceEq, if_false, if_true]
  rw [hns, find_setLoads, hfind]
  simp only [Option.map_some]
  rw [if_pos (by rw [e]; exact hj)]

end QuESo.Kratos
