import Verif.Spec.DictionaryList
import Mathlib.Data.List.Nodup

/-!
# C104: iterators that dereference, and the list of dictionaries in Python
-/
namespace QuESo.DList
open QuESo.MView QuESo.Spec

/-! ### Iterators -/

section
variable {α : Type} {v : Vec α}

theorem valid_iff {i : It} : valid v i = true ↔ i.block = v.block ∧ (i.pos < i.len ∨ i.len = v.data.length) ∧ i.pos ≤ v.data.length := by
  simp [valid, and_assoc]

theorem add_spec {i : It} (h : valid v i = true) (hl : i.len = v.data.length) (n : Int) :
    add v i n = if 0 ≤ (i.pos : Int) + n ∧ (i.pos : Int) + n ≤ v.data.length then some ⟨v.block, ((i.pos : Int) + n).toNat, v.data.length⟩ else none := by
  unfold add
  rw [if_pos h]

theorem at_valid {k : Int} {i : It} (h : At v k i) : valid v i = true := by
  obtain ⟨rfl, h0, h1⟩ := h
  rw [valid_iff]
  refine ⟨rfl, Or.inr rfl, ?_⟩
  show k.toNat ≤ v.data.length
  omega

theorem at_add {k : Int} {i : It} (h : At v k i) (n : Int) :
    (0 ≤ k + n ∧ k + n ≤ v.data.length → ∃ j, add v i n = some j ∧ At v (k + n) j) ∧ (¬ (0 ≤ k + n ∧ k + n ≤ v.data.length) → add v i n = none) := by
  have hv := at_valid h
  obtain ⟨rfl, h0, h1⟩ := h
  have e : ((k.toNat : Nat) : Int) = k := Int.toNat_of_nonneg h0
  unfold add
  rw [if_pos hv]
  dsimp only
  rw [e]
  constructor
  · intro hn
    rw [if_pos hn]
    exact ⟨_, rfl, rfl, hn.1, hn.2⟩
  · intro hn
    rw [if_neg hn]

end

/-- C104: an expression with iterators has undefined behaviour exactly if it leaves the range from begin to end; else it gives the iterator of its index. -/
theorem C104_expression {α : Type} (v : Vec α) (e : Expr) : match e.index v.data.length with
    | some k => ∃ i, e.eval v = some i ∧ At v k i
    | none => e.eval v = none := by
  have arith : ∀ (e : Expr) (n : Int) (f : It → Option It), (∀ i, f i = add v i n) →
      (match e.index v.data.length with
        | some k => ∃ i, e.eval v = some i ∧ At v k i
        | none => e.eval v = none) →
      match (e.index v.data.length).bind fun i => if 0 ≤ i + n ∧ i + n ≤ (v.data.length : Int) then some (i + n) else none with
        | some k => ∃ i, (e.eval v).bind f = some i ∧ At v k i
        | none => (e.eval v).bind f = none := by
    intro e n f hf h
    cases hi : e.index v.data.length with
    | none => rw [hi] at h; dsimp only at h; simp [h]
    | some k =>
      rw [hi] at h
      obtain ⟨i, h1, h2⟩ := h
      rw [h1]
      simp only [Option.bind_some]
      by_cases hn : 0 ≤ k + n ∧ k + n ≤ (v.data.length : Int)
      · rw [if_pos hn]
        dsimp only
        rw [hf]
        exact (at_add h2 n).1 hn
      · rw [if_neg hn]
        dsimp only
        rw [hf]
        exact (at_add h2 n).2 hn
  induction e with
  | begin => exact ⟨_, rfl, rfl, by simp, by simp⟩
  | fin => exact ⟨_, rfl, by simp [finish], by simp, by simp⟩
  | plus e n ih => exact arith e n (fun i => add v i n) (fun _ => rfl) ih
  | minus e n ih => exact arith e (-n) (fun i => sub v i n) (fun _ => rfl) ih
  | inc e ih => exact arith e 1 (preInc v) (fun _ => rfl) ih
  | dec e ih => exact arith e (-1) (preDec v) (fun _ => rfl) ih

/-- C104: what is done with iterators of two indices is what is done with the indices: difference, comparison, and the object at an index.  The postfix
operators give the old value. -/
theorem C104_indices {v : Vec (Option Nat)} {k l : Int} {i j : It} (hi : At v k i) (hj : At v l j) :
    diff v i j = some (k - l) ∧ eq v i j = some (decide (k = l)) ∧ lt v i j = some (decide (k < l)) ∧
    deref v i = (v.data[k.toNat]?).bind id ∧ arrow v i = v.data[k.toNat]? ∧
    (∀ n, index v i n = if 0 ≤ k + n then (v.data[(k + n).toNat]?).bind id else none) ∧
    postInc v i = (preInc v i).map (fun i' => (i, i')) ∧ postDec v i = (preDec v i).map fun i' => (i, i') := by
  have vi := at_valid hi
  have vj := at_valid hj
  have hidx : ∀ n, index v i n = if 0 ≤ k + n then (v.data[(k + n).toNat]?).bind id else none := by
    intro n
    unfold index
    by_cases hn : 0 ≤ k + n ∧ k + n ≤ (v.data.length : Int)
    · obtain ⟨i', h1, h2⟩ := (at_add hi n).1 hn
      rw [h1, if_pos hn.1, Option.bind_some, deref, element, if_pos (at_valid h2), h2.1]
    · rw [(at_add hi n).2 hn]
      by_cases h0 : 0 ≤ k + n
      · rw [if_pos h0, List.getElem?_eq_none (by omega)]; rfl
      · rw [if_neg h0]; rfl
  refine ⟨?_, ?_, ?_, ?_, ?_, hidx, rfl, rfl⟩
  · unfold diff
    rw [if_pos ⟨vi, vj⟩, hi.1, hj.1]
    have := hi.2; have := hj.2
    congr 1
    dsimp only
    omega
  · unfold eq
    rw [if_pos ⟨vi, vj⟩, hi.1, hj.1]
    have := hi.2; have := hj.2
    congr 1
    dsimp only
    rw [decide_eq_decide]
    omega
  · unfold lt
    rw [if_pos ⟨vi, vj⟩, hi.1, hj.1]
    have := hi.2; have := hj.2
    congr 1
    dsimp only
    rw [decide_eq_decide]
    omega
  · unfold deref element
    rw [if_pos vi, hi.1]
  · unfold arrow element
    rw [if_pos vi, hi.1]

/-! ### Loops in Python -/

/-- C104 (partial: the body does not append to the list).  A loop over the list visits every dictionary once, in order, and ends. -/
theorem C104_loop_partial {σ : Type} {v : Vec (Option Nat)} {as : List Nat} (hv : v.data = as.map some)
    {body : Nat → Vec (Option Nat) × σ → Option (Vec (Option Nat) × σ)} (hb : ∀ a st st', body a st = some st' → st'.1 = st.1)
    {fuel : Nat} (hf : as.length < fuel) (s : σ) :
    forIn body fuel (pyIter v) (v, s) = as.foldlM (fun st a => body a st) (v, s) := by
  have hlen : v.data.length = as.length := by rw [hv]; simp
  have key : ∀ (rest done : List Nat) (fuel : Nat) (st : Vec (Option Nat) × σ) (it : PyIter), as = done ++ rest → st.1 = v → rest.length < fuel → it.fin = finish v →
      (it.first = true ∧ At v done.length it.it ∨ it.first = false ∧ ∃ k : Nat, k + 1 = done.length ∧ At v k it.it) →
      forIn body fuel it st = rest.foldlM (fun st a => body a st) st := by
    intro rest
    induction rest with
    | nil =>
      intro done fuel st it has hst hfuel hfin hit
      obtain ⟨fuel, rfl⟩ : ∃ f, fuel = f + 1 := ⟨fuel - 1, by simp at hfuel; omega⟩
      have hd : done.length = v.data.length := by rw [hlen, has]; simp
      have hn : ∃ i, (if it.first then some it.it else preInc v it.it) = some i ∧ At v done.length i := by
        rcases hit with ⟨h1, h2⟩ | ⟨h1, k, h2, h3⟩
        · exact ⟨it.it, by rw [h1]; rfl, h2⟩
        · obtain ⟨i, q1, q2⟩ := (at_add h3 1).1 ⟨by omega, by omega⟩
          refine ⟨i, by rw [h1]; exact q1, ?_⟩
          have : ((k : Int) + 1) = (done.length : Int) := by omega
          rwa [this] at q2
      obtain ⟨i, h1, h2⟩ := hn
      have hfa : At v v.data.length (finish v) := ⟨by simp [finish], by simp, by simp⟩
      have heq := (C104_indices h2 hfa).2.1
      rw [forIn, pyNext, hst, h1]
      dsimp only
      rw [hfin, heq]
      simp [hd]
    | cons a rest ih =>
      intro done fuel st it has hst hfuel hfin hit
      obtain ⟨fuel, rfl⟩ : ∃ f, fuel = f + 1 := ⟨fuel - 1, by simp at hfuel; omega⟩
      have hd : done.length < v.data.length := by rw [hlen, has]; simp
      have hn : ∃ i, (if it.first then some it.it else preInc v it.it) = some i ∧ At v done.length i := by
        rcases hit with ⟨h1, h2⟩ | ⟨h1, k, h2, h3⟩
        · exact ⟨it.it, by rw [h1]; rfl, h2⟩
        · obtain ⟨i, q1, q2⟩ := (at_add h3 1).1 ⟨by omega, by omega⟩
          refine ⟨i, by rw [h1]; exact q1, ?_⟩
          have : ((k : Int) + 1) = (done.length : Int) := by omega
          rwa [this] at q2
      obtain ⟨i, h1, h2⟩ := hn
      have hfa : At v v.data.length (finish v) := ⟨by simp [finish], by simp, by simp⟩
      have heq := (C104_indices h2 hfa).2.1
      have hde := (C104_indices h2 hfa).2.2.2.1
      have hga : v.data[done.length]? = some (some a) := by rw [hv, has]; simp
      rw [forIn, pyNext, hst, h1]
      dsimp only
      rw [hfin, heq, show decide ((done.length : Int) = (v.data.length : Int)) = false from decide_eq_false (by omega)]
      dsimp only
      rw [hde]
      simp only [Int.toNat_natCast, hga, Option.bind_some, id]
      rw [List.foldlM_cons]
      cases hbo : body a st with
      | none => rfl
      | some st' =>
        dsimp only
        have hst' : st'.1 = v := by rw [hb a st st' hbo, hst]
        rw [ih (done ++ [a]) fuel st' _ (by rw [has]; simp) hst' (by simp at hfuel; omega) rfl (Or.inr ⟨rfl, done.length, by simp, h2⟩)]
        rfl
  exact key as [] fuel (v, s) (pyIter v) rfl rfl hf rfl (Or.inl ⟨rfl, rfl, by simp, by simp⟩)

/-- C104 is false of the code for bodies that append: every loop whose body appends to the list (which is not empty) has undefined behaviour, whatever memory
is reserved; a loop over a list of Python would go on with the new element. -/
theorem C104_append_false_of_code {σ : Type} (grow : Nat → Nat) {v : Vec (Option Nat)} {a : Nat} {rest : List (Option Nat)} (hv : v.data = some a :: rest)
    {body : Nat → Vec (Option Nat) × σ → Option (Vec (Option Nat) × σ)} {b : Nat} (hb : ∀ a st, ∃ s', body a st = some (st.1.push grow (some b), s'))
    (fuel : Nat) (s : σ) : forIn body fuel (pyIter v) (v, s) = none := by
  cases fuel with
  | zero => rfl
  | succ fuel =>
    have hbe : At v 0 (begin v) := ⟨rfl, by simp, by simp⟩
    have hfa : At v v.data.length (finish v) := ⟨by simp [finish], by simp, by simp⟩
    have hl : v.data.length = rest.length + 1 := by rw [hv]; simp
    rw [forIn, pyNext]
    simp only [pyIter, if_true]
    rw [(C104_indices hbe hfa).2.1, show decide ((0 : Int) = (v.data.length : Int)) = false from decide_eq_false (by omega)]
    dsimp only
    rw [(C104_indices hbe hfa).2.2.2.1]
    simp only [Int.toNat_zero, hv, List.getElem?_cons_zero, Option.bind_some, id]
    obtain ⟨s', hs'⟩ := hb a (v, s)
    rw [hs']
    dsimp only
    cases fuel with
    | zero => rfl
    | succ fuel =>
      have hpush : (v.push grow (some b)).data.length = v.data.length + 1 := by unfold Vec.push; split <;> simp
      have hfin : valid (v.push grow (some b)) (finish v) = false := by
        rw [Bool.eq_false_iff]
        intro h
        rw [valid_iff] at h
        simp only [finish] at h
        omega
      rw [forIn, pyNext]
      simp only [if_false, Bool.false_eq_true]
      cases preInc (v.push grow (some b)) (begin v) with
      | none => rfl
      | some i =>
        dsimp only
        unfold eq
        rw [if_neg (by rw [hfin]; simp)]

/-- C104 is false of the code for indices out of range: they are not checked, the behaviour is undefined. -/
theorem C104_index_false_of_code (v : Vec (Option Nat)) {i : Nat} (h : v.data.length ≤ i) : getItem v i = none := by
  unfold getItem
  rw [List.getElem?_eq_none h]
  rfl

/-! ### Histories -/

theorem push_data {α : Type} (grow : Nat → Nat) (v : Vec α) (a : α) : (v.push grow a).data = v.data ++ [a] := by
  unfold Vec.push; split <;> rfl

theorem owned_step {D : Type} (grow : Nat → Nat) {s : State D} (h : Owned s) (c : Call D) : Owned (step grow s c).1 := by
  obtain ⟨⟨as, h1⟩, h2, h3⟩ := h
  cases c with
  | create d =>
    refine ⟨⟨as, h1⟩, ?_, ?_⟩
    · simp only [step, List.filter_append]
      rw [← List.append_assoc]
      refine List.Nodup.append h2 (by simp) ?_
      intro x hx hy
      simp only [ne_eq, reduceCtorEq, not_false_eq_true, decide_true, List.filter_cons_of_pos, List.filter_nil, List.mem_singleton] at hy
      have := h3 s.heap.length (by
        rw [hy] at hx
        rcases List.mem_append.1 hx with k | k
        · exact List.mem_append_left _ k
        · exact List.mem_append_right _ (List.mem_filter.1 k).1)
      omega
    · intro a ha
      simp only [step, List.length_append, List.length_singleton]
      simp only [step, List.mem_append, List.mem_singleton] at ha
      rcases ha with ha | ha | ha
      · have := h3 a (by simp [ha]); omega
      · have := h3 a (by simp [ha]); omega
      · cases ha; omega
  | append i =>
    simp only [step]
    split
    · rename_i a ha
      have hia : s.holders[i]? = some (some a) := ha
      have hi : i < s.holders.length := by
        by_contra hn
        rw [List.getElem?_eq_none (by omega)] at hia
        exact absurd hia (by simp)
      have hset : s.holders = s.holders.take i ++ some a :: s.holders.drop (i + 1) := by
        have : s.holders[i] = some a := by rw [List.getElem?_eq_getElem hi] at hia; exact Option.some.inj hia
        conv_lhs => rw [← List.take_append_drop i s.holders, List.drop_eq_getElem_cons hi, this]
      refine ⟨⟨as ++ [a], by simp [push_data, h1]⟩, ?_, ?_⟩
      · dsimp only
        rw [push_data, List.set_eq_take_append_cons_drop, if_pos hi]
        rw [hset] at h2
        simp only [List.filter_append, List.filter_cons] at h2 ⊢
        simp only [ne_eq, reduceCtorEq, not_false_eq_true, decide_true, if_true, not_true_eq_false, decide_false, Bool.false_eq_true, if_false] at h2 ⊢
        refine List.Perm.nodup ?_ h2
        rw [List.append_assoc]
        refine List.Perm.append_left _ ?_
        exact List.perm_middle
      · intro b hb
        dsimp only at hb ⊢
        rw [push_data] at hb
        simp only [List.mem_append, List.mem_singleton] at hb
        rcases hb with (hb | hb) | hb
        · exact h3 b (by simp [hb])
        · cases hb
          exact h3 a (List.mem_append_right _ (List.mem_of_getElem? hia))
        · rcases List.mem_or_eq_of_mem_set hb with k | k
          · exact h3 b (by simp [k])
          · exact absurd k (by simp)
    · exact ⟨⟨as, h1⟩, h2, h3⟩
    · exact ⟨⟨as, h1⟩, h2, h3⟩
  | change a f => exact ⟨⟨as, h1⟩, h2, by simpa [step] using h3⟩

/-- C104: after any calls the list holds no null and no dictionary twice, and every entry exists; so loops over it are covered by `C104_loop_partial`. -/
theorem C104_history {D : Type} (grow : Nat → Nat) (cs : List (Call D)) : Owned (run grow ({} : State D) cs) := by
  have : ∀ (cs : List (Call D)) (s : State D), Owned s → Owned (run grow s cs) := by
    intro cs
    induction cs with
    | nil => intro s h; exact h
    | cons c cs ih => intro s h; exact ih _ (owned_step grow h c)
  exact this cs _ ⟨⟨[], rfl⟩, by simp, by simp⟩

/-- The entries stay. -/
theorem list_prefix {D : Type} (grow : Nat → Nat) : ∀ (cs : List (Call D)) (s : State D), s.list.data <+: (run grow s cs).list.data := by
  intro cs
  induction cs with
  | nil => intro s; exact List.prefix_rfl
  | cons c cs ih =>
    intro s
    refine List.IsPrefix.trans ?_ (ih _)
    cases c with
    | create d => exact List.prefix_rfl
    | append i =>
      simp only [step]
      split
      · rw [push_data]; exact List.prefix_append _ _
      · exact List.prefix_rfl
      · exact List.prefix_rfl
    | change a f => exact List.prefix_rfl

/-- C104: a reference to an entry stays a reference to this entry whatever is appended or changed later (unlike a reference to an element of a vector). -/
theorem C104_reference {D : Type} (grow : Nat → Nat) (s : State D) {i a : Nat} (h : getItem s.list i = some a) (cs : List (Call D)) :
    getItem (run grow s cs).list i = some a := by
  unfold getItem at h ⊢
  cases hi : s.list.data[i]? with
  | none => rw [hi] at h; exact absurd h (by simp)
  | some p =>
    rw [hi] at h
    have hl : i < s.list.data.length := by
      by_contra hn
      rw [List.getElem?_eq_none (by omega)] at hi
      exact absurd hi (by simp)
    obtain ⟨t, ht⟩ := list_prefix grow cs s
    rw [← ht, List.getElem?_append_left hl, hi]
    exact h

/-- C104: a dictionary is taken out of its holder by the first append; a second one raises an exception and changes nothing. -/
theorem C104_released {D : Type} (grow : Nat → Nat) (s : State D) {h a : Nat} (hh : s.holders[h]? = some (some a)) :
    (step grow s (.append h)).2 = false ∧ (step grow s (.append h)).1.list.data = s.list.data ++ [some a] ∧
    ∀ cs, step grow (run grow (step grow s (.append h)).1 cs) (.append h) = (run grow (step grow s (.append h)).1 cs, true) := by
  have e : step grow s (.append h) = ({ s with list := s.list.push grow (some a), holders := s.holders.set h none }, false) := by simp only [step, hh]
  have hl : h < s.holders.length := by
    by_contra hn
    rw [List.getElem?_eq_none (by omega)] at hh
    exact absurd hh (by simp)
  refine ⟨by rw [e], by rw [e]; exact push_data _ _ _, ?_⟩
  have keep : ∀ (cs : List (Call D)) (s : State D), s.holders[h]? = some none → (run grow s cs).holders[h]? = some none := by
    intro cs
    induction cs with
    | nil => intro s hs; exact hs
    | cons c cs ih =>
      intro s hs
      refine ih _ ?_
      have hl' : h < s.holders.length := by
        by_contra hn
        rw [List.getElem?_eq_none (by omega)] at hs
        exact absurd hs (by simp)
      cases c with
      | create d => simp only [step]; rw [List.getElem?_append_left hl']; exact hs
      | append i =>
        simp only [step]
        split
        · rename_i b hb
          dsimp only
          rw [List.getElem?_set]
          split
          · rename_i hii; rw [hii, if_pos hl']
          · exact hs
        · exact hs
        · exact hs
      | change b f => exact hs
  intro cs
  have hk := keep cs (step grow s (.append h)).1 (by rw [e]; simp [hl])
  generalize run grow (step grow s (.append h)).1 cs = s' at hk ⊢
  simp only [step, hk]

/-! ### Example -/

/-- Two dictionaries in a list; one is changed by a reference. -/
def exState : State Nat := run (fun n => 2 * n + 1) {} [.create 5, .create 6, .append 1, .append 0, .append 1, .change 1 (· + 10)]

example : exState.list.data = [some 1, some 0] ∧ exState.heap = [5, 16] ∧
    forIn (fun a st => some (st.1, st.2 ++ [a])) 3 (pyIter exState.list) (exState.list, []) = some (exState.list, [1, 0]) ∧
    forIn (fun a st => some (st.1.push (fun n => 2 * n + 1) (some 0), st.2 ++ [a])) 9 (pyIter exState.list) (exState.list, []) = none := by decide +kernel

example : (Expr.plus (.dec .fin) (-1)).index 2 = some 0 ∧ (Expr.inc .fin).eval exState.list = none := by decide +kernel

end QuESo.DList
