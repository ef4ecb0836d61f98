import Verif.Spec.ElementStore
import Verif.Spec.Grid
import Mathlib.Data.List.Nodup
import Mathlib.Data.List.Perm.Basic

namespace QuESo.BGrid
open Spec
variable {α : Type _}

/-- Insertion log: elements in insertion order with unique ids. -/
def addLog (l : List (Kind × Nat × α)) (e : Kind × Nat × α) : List (Kind × Nat × α) :=
  if l.any (fun x => x.2.1 == e.2.1) then l else l ++ [e]

def isKind (k : Kind) (e : Kind × Nat × α) : Bool := e.1 == k

def proj (k : Kind) (l : List (Kind × Nat × α)) : List (Nat × α) := (l.filter (isKind k)).map (·.2)

/-- location of each log entry -/
def locs : List (Kind × Nat × α) → List (Nat × Loc) :=
  fun l => (l.zipIdx.map (fun e => (e.1.2.1, ⟨e.1.1 == .trimmed, ((l.take e.2).filter (isKind e.1.1)).length⟩)))

/-- The invariant: the state is determined by a duplicate-free log. -/
structure Inv (s : State α) (l : List (Kind × Nat × α)) : Prop where
  nodup : (l.map (·.2.1)).Nodup
  unt : s.untrimmed = proj .untrimmed l
  tri : s.trimmed = proj .trimmed l
  keys : ∀ id, (s.find id).isSome = l.any (fun x => x.2.1 == id)
  look : ∀ id loc, s.find id = some loc → ∃ k a, (k, id, a) ∈ l ∧ loc.isTrimmed = (k == .trimmed) ∧
      (proj k l)[loc.index]? = some (id, a)

theorem inv_init : Inv ({} : State α) [] := by
  refine ⟨by simp, rfl, rfl, by simp [State.find], by simp [State.find]⟩

theorem find_append (s : State α) (u t : List (Nat × α)) (b : Bool) (id' : Nat) (loc : Loc) (id : Nat)
    (hnone : (s.find id').isSome = false) :
    ({ untrimmed := u, trimmed := t, idMap := s.idMap ++ [(id', loc)], locked := b } : State α).find id =
      if id = id' then some loc else s.find id := by
  unfold State.find at *
  simp only [List.find?_append]
  by_cases h : id = id'
  · subst h
    have : s.idMap.find? (fun e => e.1 == id) = none := by simpa using hnone
    simp [this]
  · simp [h, Ne.symm h]

theorem proj_append (k : Kind) (l : List (Kind × Nat × α)) (e : Kind × Nat × α) :
    proj k (l ++ [e]) = if e.1 = k then proj k l ++ [e.2] else proj k l := by
  unfold proj isKind
  by_cases h : e.1 = k <;> simp [List.filter_append, h]

theorem inv_make {s : State α} {l : List (Kind × Nat × α)} (h : Inv s l) (hl : s.locked = false)
    (k : Kind) (id : Nat) (a : α) :
    Inv (s.make k id (some a)).1 (addLog l (k, id, a)) ∧ (s.make k id (some a)).1.locked = false ∧
    (s.make k id (some a)).2 = (if l.any (fun x => x.2.1 == id) then .duplicateError else .inserted) := by
  have hk := h.keys id
  by_cases hd : l.any (fun x => x.2.1 == id) = true
  · rw [hd] at hk
    have : s.make k id (some a) = (s, .duplicateError) := by simp [State.make, hl, hk]
    rw [this]
    have e : addLog l (k, id, a) = l := by simp only [addLog, hd, if_true]
    rw [e]
    exact ⟨h, hl, by simp [hd]⟩
  · have hd' : l.any (fun x => x.2.1 == id) = false := Bool.eq_false_iff.mpr hd
    rw [hd'] at hk
    have e : addLog l (k, id, a) = l ++ [(k, id, a)] := by simp [addLog, hd']
    rw [e]
    have hnd : ((l ++ [(k, id, a)]).map (·.2.1)).Nodup := by
      rw [List.map_append, List.nodup_append]
      refine ⟨h.nodup, by simp, ?_⟩
      intro x hx y hy hxy
      simp only [List.map_cons, List.map_nil, List.mem_singleton] at hy
      obtain ⟨z, hz, hz2⟩ := List.mem_map.mp hx
      have : l.any (fun x => x.2.1 == id) = true :=
        List.any_eq_true.mpr ⟨z, hz, by simp [hz2, hxy, hy]⟩
      simp [hd'] at this
    have keyext : ∀ j, (if j = id then (true : Bool) else (s.find j).isSome) =
        (l ++ [(k, id, a)]).any (fun x => x.2.1 == j) := by
      intro j
      rw [List.any_append, ← h.keys j]
      by_cases hj : j = id
      · subst hj; simp
      · simp [hj, Ne.symm hj]
    cases k with
    | trimmed =>
      have hm : s.make .trimmed id (some a) = (s.pushTrimmed id a, .inserted) := by
        simp [State.make, hl, hk]
      rw [hm]
      refine ⟨⟨hnd, ?_, ?_, ?_, ?_⟩, hl, by simp [hd']⟩
      · simp only [proj_append, State.pushTrimmed, State.pushUntrimmed]; rw [h.unt]; simp
      · simp only [proj_append, State.pushTrimmed, State.pushUntrimmed]; rw [h.tri]; simp
      · intro j
        rw [← keyext j]
        simp only [State.pushTrimmed, State.pushUntrimmed, find_append s s.untrimmed _ s.locked id _ j hk]
        by_cases hj : j = id <;> simp [hj]
      · intro j loc hloc
        simp only [State.pushTrimmed, State.pushUntrimmed, find_append s s.untrimmed _ s.locked id _ j hk] at hloc
        by_cases hj : j = id
        · subst hj
          simp at hloc
          refine ⟨.trimmed, a, by simp, by rw [← hloc]; rfl, ?_⟩
          rw [← hloc, proj_append, ← h.tri]
          simp
        · simp [hj] at hloc
          obtain ⟨k', a', h1, h2, h3⟩ := h.look j loc hloc
          refine ⟨k', a', by simp [h1], h2, ?_⟩
          rw [proj_append]
          split
          · rw [List.getElem?_append_left]; exact h3
            exact (List.getElem?_eq_some_iff.mp h3).1
          · exact h3
    | untrimmed =>
      have hm : s.make .untrimmed id (some a) = (s.pushUntrimmed id a, .inserted) := by
        simp [State.make, hl, hk]
      rw [hm]
      refine ⟨⟨hnd, ?_, ?_, ?_, ?_⟩, hl, by simp [hd']⟩
      · simp only [proj_append, State.pushTrimmed, State.pushUntrimmed]; rw [h.unt]; simp
      · simp only [proj_append, State.pushTrimmed, State.pushUntrimmed]; rw [h.tri]; simp
      · intro j
        rw [← keyext j]
        simp only [State.pushTrimmed, State.pushUntrimmed, find_append s _ s.trimmed s.locked id _ j hk]
        by_cases hj : j = id <;> simp [hj]
      · intro j loc hloc
        simp only [State.pushTrimmed, State.pushUntrimmed, find_append s _ s.trimmed s.locked id _ j hk] at hloc
        by_cases hj : j = id
        · subst hj
          simp at hloc
          refine ⟨.untrimmed, a, by simp, by rw [← hloc]; rfl, ?_⟩
          rw [← hloc, proj_append, ← h.unt]
          simp
        · simp [hj] at hloc
          obtain ⟨k', a', h1, h2, h3⟩ := h.look j loc hloc
          refine ⟨k', a', by simp [h1], h2, ?_⟩
          rw [proj_append]
          split
          · rw [List.getElem?_append_left]; exact h3
            exact (List.getElem?_eq_some_iff.mp h3).1
          · exact h3

theorem run_locked (s : State α) (ops : List (Op α)) (h : s.locked = true) : s.run ops = s := by
  induction ops generalizing s with
  | nil => rfl
  | cons o ops ih =>
    have e : (s.step o).1 = s := by
      cases o with
      | make k id b => simp [State.step, State.make, h]
      | lock => cases s; simp_all [State.step, State.lock]
    simp only [State.run, List.foldl_cons] at *
    rw [e]; exact ih s h

theorem inv_lock {s : State α} {l} (h : Inv s l) : Inv s.lock l :=
  ⟨h.nodup, h.unt, h.tri, h.keys, h.look⟩

/-- The log after a history. -/
theorem run_inv (ops : List (Op α)) : ∀ (s : State α) (l : List (Kind × Nat × α)), Inv s l →
    s.locked = false → Inv (s.run ops) ((built ops).foldl addLog l) := by
  induction ops with
  | nil => intro s l h _; exact h
  | cons o ops ih =>
    intro s l h hl
    cases o with
    | lock =>
      have : s.run (.lock :: ops) = s.lock.run ops := rfl
      rw [this, run_locked _ _ rfl]
      exact inv_lock h
    | make k id b =>
      have e : s.run (.make k id b :: ops) = (s.make k id b).1.run ops := rfl
      rw [e]
      cases b with
      | none =>
        have : s.make k id none = (s, .notBuilt) := by simp [State.make, hl]
        rw [this]; exact ih s l h hl
      | some a =>
        obtain ⟨h1, h2, _⟩ := inv_make h hl k id a
        exact ih _ _ h1 h2

theorem foldl_addLog_find (es : List (Kind × Nat × α)) (l : List (Kind × Nat × α)) (id : Nat) :
    (es.foldl addLog l).find? (fun e => e.2.1 == id) =
      (l.find? (fun e => e.2.1 == id)).or (es.find? (fun e => e.2.1 == id)) := by
  induction es generalizing l with
  | nil => simp
  | cons e es ih =>
    rw [List.foldl_cons, ih]
    unfold addLog
    by_cases hany : l.any (fun x => x.2.1 == e.2.1) = true
    · rw [if_pos hany]
      by_cases he : e.2.1 = id
      · obtain ⟨x, hx, hx2⟩ := List.any_eq_true.mp hany
        have : (l.find? (fun e => e.2.1 == id)).isSome := by
          rw [List.find?_isSome]; exact ⟨x, hx, by simpa [he] using hx2⟩
        obtain ⟨y, hy⟩ := Option.isSome_iff_exists.mp this
        simp [hy]
      · simp [he]
    · rw [if_neg hany, List.find?_append]
      by_cases he : e.2.1 = id
      · simp [he]
      · simp [he]

theorem find_of_nodup {l : List (Kind × Nat × α)} (h : (l.map (·.2.1)).Nodup) {k id a}
    (hm : (k, id, a) ∈ l) : l.find? (fun e => e.2.1 == id) = some (k, id, a) := by
  induction l with
  | nil => simp at hm
  | cons x l ih =>
    simp only [List.map_cons, List.nodup_cons] at h
    rcases List.mem_cons.mp hm with rfl | hm'
    · simp
    · have : x.2.1 ≠ id := by
        intro hx
        exact h.1 (List.mem_map.mpr ⟨_, hm', by simp [hx]⟩)
      simp [this, ih h.2 hm']

theorem getElement_of_inv {s : State α} {l} (h : Inv s l) (f : Filter) (id : Nat) :
    s.getElement f id = match l.find? (fun e => e.2.1 == id) with
      | some (k, i, a) => if accepts f k then .elem k i a else .nothing
      | none => .nothing := by
  unfold State.getElement
  cases hf : s.find id with
  | none =>
    have := h.keys id
    rw [hf] at this
    have hn : l.find? (fun e => e.2.1 == id) = none := by
      rw [List.find?_eq_none]
      intro x hx hc
      have : l.any (fun x => x.2.1 == id) = true := List.any_eq_true.mpr ⟨x, hx, hc⟩
      simp_all
    rw [hn]
  | some loc =>
    obtain ⟨k, a, h1, h2, h3⟩ := h.look id loc hf
    rw [find_of_nodup h.nodup h1]
    cases k with
    | trimmed =>
      have h2' : loc.isTrimmed = true := by simpa using h2
      rw [← h.tri] at h3
      cases f <;> simp [h2', accepts, atIndex, h3]
    | untrimmed =>
      have h2' : loc.isTrimmed = false := by rw [h2]; rfl
      rw [← h.unt] at h3
      cases f <;> simp [h2', accepts, atIndex, h3]

theorem addLog_nodup (es l : List (Kind × Nat × α)) (h : (l.map (·.2.1)).Nodup)
    (h2 : (es.map (·.2.1)).Nodup) (h3 : ∀ x ∈ l, ∀ y ∈ es, x.2.1 ≠ y.2.1) :
    es.foldl addLog l = l ++ es := by
  induction es generalizing l with
  | nil => simp
  | cons e es ih =>
    rw [List.foldl_cons]
    simp only [List.map_cons, List.nodup_cons] at h2
    have hany : l.any (fun x => x.2.1 == e.2.1) = false := by
      rw [List.any_eq_false]
      intro x hx
      simpa using h3 x hx e (by simp)
    have e1 : addLog l e = l ++ [e] := by simp [addLog, hany]
    rw [e1, ih]
    · simp
    · rw [List.map_append, List.nodup_append]
      refine ⟨h, by simp, ?_⟩
      intro a ha b hb
      obtain ⟨x, hx, rfl⟩ := List.mem_map.mp ha
      simp at hb; subst hb
      exact h3 x hx e (by simp)
    · exact h2.2
    · intro x hx y hy
      rcases List.mem_append.mp hx with hx | hx
      · exact h3 x hx y (by simp [hy])
      · simp at hx; subst hx
        intro hc
        exact h2.1 (List.mem_map.mpr ⟨y, hy, hc.symm⟩)

theorem proj_length_add (l : List (Kind × Nat × α)) :
    (proj .untrimmed l).length + (proj .trimmed l).length = l.length := by
  unfold proj isKind
  induction l with
  | nil => rfl
  | cons e l ih =>
    obtain ⟨k, r⟩ := e
    cases k <;> simp at * <;> omega

end QuESo.BGrid
