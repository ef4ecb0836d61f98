import Verif.Model.BRep
import Verif.Proofs.GeometryQuery

namespace QuESo.BRep
open QuESo.AABB QuESo.AABBTree QuESo.GQ QuESo.Spec QuESo.IO
variable {K : Type} [Field K] [LinearOrder K]

/-- The result of a vote over the answers of the rays. -/
theorem voteLoop_spec (ask : Nat → Except Fault (Bool × Bool)) : ∀ (l : List (Bool × Bool)) (it s : Nat) (ins : Int),
    (∀ k, ∀ h : k < l.length, ask (it + k) = .ok l[k]) → s ≤ 5 →
    voteLoop ask l.length it s ins = .ok (decide ((((l.filter Prod.snd).map Prod.fst).take (5 - s)).length = 5 - s ∧
      0 < ins + (((l.filter Prod.snd).map Prod.fst).take (5 - s)).count true - (((l.filter Prod.snd).map Prod.fst).take (5 - s)).count false))
  | [], it, s, ins, _, hs => by
    rw [List.length_nil, voteLoop]
    split
    · simp only [List.filter_nil, List.map_nil, List.take_nil, List.length_nil]
      rw [decide_eq_false]
      rintro ⟨h, -⟩; omega
    · have : s = 5 := by omega
      subst this
      simp
  | x :: l, it, s, ins, h, hs => by
    rw [List.length_cons, voteLoop]
    split
    · rename_i hs5
      have h0 := h 0 (by simp)
      rw [Nat.add_zero] at h0
      simp only [h0, List.getElem_cons_zero]
      obtain ⟨b, ok⟩ := x
      have hk : ∀ k, ∀ hk : k < l.length, ask (it + 1 + k) = .ok l[k] := fun k hk => by
        have := h (k + 1) (by simpa using hk)
        rw [show it + 1 + k = it + (k + 1) by omega, this]
        simp
      cases ok with
      | false =>
        simp only [Bool.false_eq_true, if_false]
        rw [voteLoop_spec ask l (it + 1) s ins hk hs]
        simp
      | true =>
        simp only [if_true]
        rw [voteLoop_spec ask l (it + 1) (s + 1) _ hk (by omega)]
        have e : 5 - s = (5 - (s + 1)) + 1 := by omega
        rw [e]
        simp only [List.filter_cons, if_true, List.map_cons, List.take_succ_cons, List.length_cons, List.count_cons]
        congr 2
        cases b <;> simp <;> intro _ <;> omega
    · have : s = 5 := by omega
      subst this
      simp

theorem voteLoop_ok (ask : Nat → Except Fault (Bool × Bool)) (h : ∀ n, ∃ x, ask n = .ok x) : ∀ (left it s : Nat) (ins : Int),
    ∃ b, voteLoop ask left it s ins = .ok b
  | 0, it, s, ins => by
    rw [voteLoop]; split
    · exact ⟨_, rfl⟩
    · exact ⟨_, rfl⟩
  | left + 1, it, s, ins => by
    rw [voteLoop]; split
    · obtain ⟨⟨b, ok⟩, hx⟩ := h it
      simp only [hx]
      split
      · exact voteLoop_ok ask h left _ _ _
      · exact voteLoop_ok ask h left _ _ _
    · exact ⟨_, rfl⟩

end QuESo.BRep

namespace QuESo.GQ
open QuESo.AABB QuESo.AABBTree QuESo.Spec QuESo.IO
variable {K : Type} [Field K] [LinearOrder K]

theorem closedLoop_ok (zt : K) (junk : Nat → V3 K) {m : Mesh K} (hm : m.check = true) (r : Ray K) : ∀ (ids : List Nat) (n : Nat),
    (∀ i ∈ ids, i < m.triangles.length) → ∃ x, closedLoop zt junk m r ids n = .ok x
  | [], n, _ => ⟨_, rfl⟩
  | i :: rest, n, h => by
    obtain ⟨c, hci⟩ := corners_some hm (h i (by simp))
    have ih := fun n => closedLoop_ok zt junk hm r rest n (fun j hj => h j (by simp [hj]))
    rw [closedLoop, cornersAt_ok hci]
    simp only
    split_ifs <;> first | exact ⟨_, rfl⟩ | exact ih _

theorem openLoop_ok (zt : K) {m : Mesh K} (hm : m.check = true) (r : Ray K) : ∀ (ids : List Nat) (t : K) (b : Bool),
    (∀ i ∈ ids, i < m.triangles.length) → ∃ x, openLoop zt m r ids t b = .ok x
  | [], t, b, _ => ⟨_, rfl⟩
  | i :: rest, t, b, h => by
    obtain ⟨c, hci⟩ := corners_some hm (h i (by simp))
    have ih := fun t b => openLoop_ok zt hm r rest t b (fun j hj => h j (by simp [hj]))
    rw [openLoop, cornersAt_ok hci]
    simp only
    split
    · split_ifs <;> first | exact ⟨_, rfl⟩ | exact ih _ _
    · exact ih _ _

theorem foldl_lower (a : K) : ∀ (l : List (Box K)) (s : V3 K),
    ((l.foldl lowerStep s).x ≤ a ↔ s.x ≤ a ∨ ∃ b ∈ l, b.lower.x ≤ a) ∧ ((l.foldl lowerStep s).y ≤ a ↔ s.y ≤ a ∨ ∃ b ∈ l, b.lower.y ≤ a) ∧
      ((l.foldl lowerStep s).z ≤ a ↔ s.z ≤ a ∨ ∃ b ∈ l, b.lower.z ≤ a)
  | [], s => by simp
  | b :: l, s => by
    obtain ⟨h1, h2, h3⟩ := foldl_lower a l (lowerStep s b)
    rw [List.foldl_cons, h1, h2, h3]
    simp only [List.exists_mem_cons_iff, lowerStep, min_le_iff]
    refine ⟨?_, ?_, ?_⟩ <;> rw [← or_assoc, or_comm (a := _ ≤ a)]

theorem foldl_upper (a : K) : ∀ (l : List (Box K)) (s : V3 K),
    (a ≤ (l.foldl upperStep s).x ↔ a ≤ s.x ∨ ∃ b ∈ l, a ≤ b.upper.x) ∧ (a ≤ (l.foldl upperStep s).y ↔ a ≤ s.y ∨ ∃ b ∈ l, a ≤ b.upper.y) ∧
      (a ≤ (l.foldl upperStep s).z ↔ a ≤ s.z ∨ ∃ b ∈ l, a ≤ b.upper.z)
  | [], s => by simp
  | b :: l, s => by
    obtain ⟨h1, h2, h3⟩ := foldl_upper a l (upperStep s b)
    rw [List.foldl_cons, h1, h2, h3]
    simp only [List.exists_mem_cons_iff, upperStep, le_max_iff]
    refine ⟨?_, ?_, ?_⟩ <;> rw [← or_assoc, or_comm (a := a ≤ _)]

end QuESo.GQ
