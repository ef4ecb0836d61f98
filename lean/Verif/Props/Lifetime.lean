import Verif.Spec.Lifetime
import Mathlib.Tactic.Tauto

/-!
# C108: lifetimes of Python objects
-/
namespace QuESo.Life
open QuESo.Spec

theorem alive_iff (s : State) (i : Nat) : s.alive i = true ↔
    (∃ w ∈ s.wrappers, w.held = true ∧ i ∈ w.keeps) ∨ ∃ w, s.wrappers[i]? = some w ∧ w.held = true := by
  unfold State.alive
  rw [Bool.or_eq_true, List.any_eq_true]
  constructor
  · rintro (⟨w, hw, h⟩ | h)
    · rw [Bool.and_eq_true, List.contains_iff_mem] at h
      exact Or.inl ⟨w, hw, h⟩
    · revert h
      cases hw : s.wrappers[i]? with
      | none => intro h; simp at h
      | some w => intro h; exact Or.inr ⟨w, rfl, h⟩
  · rintro (⟨w, hw, h⟩ | ⟨w, hw, h⟩)
    · exact Or.inl ⟨w, hw, by rw [Bool.and_eq_true, List.contains_iff_mem]; exact h⟩
    · right; rw [hw]; exact h

/-- What a change of owners does to a part. -/
def moved (h : Nat) (to : Owner) (p : Part) : Part := if p.owner = .wrapper h then { p with owner := to } else p

theorem handOver_get (h : Nat) (to : Owner) (parts : List Part) (k : Nat) :
    (handOver h to parts)[k]? = (parts[k]?).map (moved h to) := by
  unfold handOver; rw [List.getElem?_map]; rfl

theorem moved_owner (h : Nat) (to : Owner) (p : Part) : (moved h to p).owner = if p.owner = .wrapper h then to else p.owner := by
  unfold moved; split <;> rfl

theorem moved_settings (h : Nat) (to : Owner) (p : Part) : (moved h to p).settings = p.settings := by
  unfold moved; split <;> rfl

theorem mem_handOver {h : Nat} {to : Owner} {parts : List Part} {p : Part} (hp : p ∈ handOver h to parts) : ∃ q ∈ parts, p = moved h to q := by
  unfold handOver at hp; rw [List.mem_map] at hp
  obtain ⟨q, hq, e⟩ := hp
  exact ⟨q, hq, e.symm⟩

theorem length_handOver (h : Nat) (to : Owner) (parts : List Part) : (handOver h to parts).length = parts.length := by
  unfold handOver; rw [List.length_map]

theorem mem_listOf {s : State} {part : Nat} {path : List Step} {e : Nat} {i : Nat} (h : (s.listOf part path)[i]? = some e) :
    (part, path, e) ∈ s.entries := by
  have := List.mem_of_getElem? h
  unfold State.listOf at this
  rw [List.mem_map] at this
  obtain ⟨x, hx, rfl⟩ := this
  rw [List.mem_filter] at hx
  obtain ⟨h1, h2⟩ := hx
  rw [decide_eq_true_eq] at h2
  obtain ⟨a, b, c⟩ := x
  obtain ⟨rfl, rfl⟩ := h2
  exact h1

theorem registered_spec {s : State} {k : Kind} {part : Nat} {path : List Step} {j : Nat} (h : s.registered k part path = some j) :
    ∃ w, s.wrappers[j]? = some w ∧ w.kind = k ∧ w.part = part ∧ w.path = path ∧ s.alive j = true := by
  unfold State.registered at h
  have := List.find?_some h
  revert this
  cases hw : s.wrappers[j]? with
  | none => intro h; simp at h
  | some w =>
    intro h
    simp only [Bool.and_eq_true, decide_eq_true_eq] at h
    exact ⟨w, rfl, h.1.1, h.1.2.1, h.1.2.2, h.2⟩

/-! ## Programs that hold on to owners -/

/-- All memory has an owner that the program holds. -/
structure Owned (s : State) : Prop where
  owner : ∀ p ∈ s.parts, p.owner = .itself ∨ ∃ o w, p.owner = .wrapper o ∧ s.wrappers[o]? = some w ∧ w.held = true
  part : ∀ w ∈ s.wrappers, w.part < s.parts.length
  entry : ∀ e ∈ s.entries, e.2.2 < s.parts.length
  settings : ∀ p ∈ s.parts, ∀ r, p.settings = some r → r < s.parts.length

theorem Owned.exists {s : State} (I : Owned s) {p : Part} (hp : p ∈ s.parts) : s.exists p.owner = true := by
  rcases I.owner p hp with h | ⟨o, w, h, hw, hh⟩
  · rw [h]; rfl
  · rw [h]; exact (alive_iff s o).mpr (Or.inr ⟨w, hw, hh⟩)

theorem Owned.usable {s : State} (I : Owned s) {w : Wrapper} (hw : w ∈ s.wrappers) : s.usable w.part = true := by
  unfold State.usable
  rw [List.getElem?_eq_getElem (I.part w hw)]
  exact I.exists (List.getElem_mem _)

theorem Owned.target {s : State} (I : Owned s) {w : Wrapper} (hw : w ∈ s.wrappers) {c : Call} {part : Nat} {path : List Step}
    (h : s.target w c = some (part, path)) : part < s.parts.length := by
  have hp := I.part w hw
  have ent : ∀ {r l i e}, (s.listOf r l)[i]? = some e → e < s.parts.length := fun h => I.entry _ (mem_listOf h)
  cases c <;> simp only [State.target] at h
  case listItem i =>
    split at h
    · obtain ⟨rfl, _⟩ := Prod.mk.inj (Option.some.inj h); exact hp
    · obtain ⟨e, he, h⟩ := Option.map_eq_some_iff.mp h
      obtain ⟨rfl, _⟩ := Prod.mk.inj h; exact ent he
  case listNext i =>
    split at h
    · obtain ⟨rfl, _⟩ := Prod.mk.inj (Option.some.inj h); exact hp
    · obtain ⟨e, he, h⟩ := Option.map_eq_some_iff.mp h
      obtain ⟨rfl, _⟩ := Prod.mk.inj h; exact ent he
  case settings =>
    split at h
    · rename_i o r hq
      obtain ⟨rfl, _⟩ := Prod.mk.inj (Option.some.inj h)
      exact I.settings _ (List.mem_of_getElem? hq) _ rfl
    · simp at h
  case conditionSettings =>
    split at h
    · obtain ⟨e, he, h⟩ := Option.map_eq_some_iff.mp h
      obtain ⟨rfl, _⟩ := Prod.mk.inj h; exact ent he
    · simp at h
  all_goals obtain ⟨rfl, _⟩ := Prod.mk.inj (Option.some.inj h); exact hp

theorem Owned.push {s : State} (I : Owned s) {w : Wrapper} (hp : w.part < s.parts.length) : Owned (s.push w).1 := by
  refine ⟨fun p hp => ?_, fun v hv => ?_, I.entry, I.settings⟩
  · rcases I.owner p hp with h | ⟨o, v, h, hv, hh⟩
    · exact Or.inl h
    · refine Or.inr ⟨o, v, h, ?_, hh⟩
      show (s.wrappers ++ [w])[o]? = some v
      rw [List.getElem?_append_left (List.getElem?_eq_some_iff.mp hv).1]; exact hv
  · rcases List.mem_append.mp hv with h | h
    · exact I.part v h
    · rw [List.mem_singleton] at h; subst h; exact hp

theorem Owned.pushOwner {s : State} (I : Owned s) (k : Kind) (t : Option Nat) (ht : ∀ r, t = some r → r < s.parts.length) :
    Owned (s.pushOwner k t).1 := by
  refine ⟨fun p hp => ?_, fun v hv => ?_, fun e he => ?_, fun p hp r hr => ?_⟩
  · rcases List.mem_append.mp hp with h | h
    · rcases I.owner p h with h | ⟨o, v, h, hv, hh⟩
      · exact Or.inl h
      · refine Or.inr ⟨o, v, h, ?_, hh⟩
        show (s.wrappers ++ [_])[o]? = some v
        rw [List.getElem?_append_left (List.getElem?_eq_some_iff.mp hv).1]; exact hv
    · rw [List.mem_singleton] at h; subst h
      exact Or.inr ⟨s.wrappers.length, _, rfl, List.getElem?_concat_length, rfl⟩
  · show v.part < (s.parts ++ [_]).length
    rw [List.length_append]
    rcases List.mem_append.mp hv with h | h
    · exact Nat.lt_add_right _ (I.part v h)
    · rw [List.mem_singleton] at h; subst h; exact Nat.lt_succ_self _
  · show _ < (s.parts ++ [_]).length
    rw [List.length_append]; exact Nat.lt_add_right _ (I.entry e he)
  · show _ < (s.parts ++ [_]).length
    rw [List.length_append]
    rcases List.mem_append.mp hp with h | h
    · exact Nat.lt_add_right _ (I.settings p h r hr)
    · rw [List.mem_singleton] at h; subst h; exact Nat.lt_add_right _ (ht r hr)

theorem Owned.modify {s : State} (I : Owned s) (i : Nat) (b : Bool) (hb : b = false → ∀ p ∈ s.parts, p.owner ≠ .wrapper i) :
    Owned { s with wrappers := s.wrappers.modify i fun v => { v with held := b } } := by
  refine ⟨fun p hp => ?_, fun v hv => ?_, I.entry, I.settings⟩
  · rcases I.owner p hp with h | ⟨o, v, h, hv, hh⟩
    · exact Or.inl h
    · refine Or.inr ⟨o, if i = o then { v with held := b } else v, h, ?_, ?_⟩
      · show (s.wrappers.modify i _)[o]? = _
        rw [List.getElem?_modify, hv]; rfl
      · by_cases hio : i = o
        · rw [if_pos hio]
          cases b with
          | true => rfl
          | false => exact absurd (hio ▸ h) (hb rfl p hp)
        · rw [if_neg hio]; exact hh
  · obtain ⟨n, hn⟩ := List.getElem?_of_mem hv
    have hn' : (s.wrappers.modify i _)[n]? = some v := hn
    rw [List.getElem?_modify] at hn'
    obtain ⟨u, hu, e⟩ := Option.map_eq_some_iff.mp hn'
    have : v.part = u.part := by
      subst e; by_cases hin : i = n
      · simp [hin]
      · simp [hin]
    rw [this]; exact I.part u (List.mem_of_getElem? hu)

theorem Owned.handOver {s : State} (I : Owned s) (h : Nat) (to : Owner)
    (hto : to = .itself ∨ ∃ o w, to = .wrapper o ∧ s.wrappers[o]? = some w ∧ w.held = true) : Owned { s with parts := handOver h to s.parts } := by
  refine ⟨fun p hp => ?_, fun w hw => ?_, fun e he => ?_, fun p hp r hr => ?_⟩
  · obtain ⟨q, hq, rfl⟩ := mem_handOver hp
    rw [moved_owner]
    split
    · exact hto
    · exact I.owner q hq
  · show _ < (Life.handOver h to s.parts).length
    rw [length_handOver]; exact I.part w hw
  · show _ < (Life.handOver h to s.parts).length
    rw [length_handOver]; exact I.entry e he
  · show _ < (Life.handOver h to s.parts).length
    obtain ⟨q, hq, rfl⟩ := mem_handOver hp
    rw [moved_settings] at hr
    rw [length_handOver]; exact I.settings q hq r hr

theorem build_eq {s : State} {h n : Nat} (hn : h ≠ n) (t : Option Nat) (hl : n = s.wrappers.length) (k : Kind) :
    (State.pushOwner { s with parts := Life.handOver h (.wrapper n) s.parts } k t).1 =
      { (s.pushOwner k t).1 with parts := Life.handOver h (.wrapper n) (s.pushOwner k t).1.parts } := by
  subst hl
  unfold State.pushOwner State.push Life.handOver
  simp only [List.map_append, List.map_cons, List.map_nil, List.length_map]
  rw [if_neg (by intro h; injection h with h; exact hn h.symm)]

theorem Owned.handOut {s : State} (I : Owned s) {i : Nat} {w : Wrapper} {c : Call} {part : Nat} {path : List Step} (hp : part < s.parts.length) :
    Owned (s.handOut i w c part path).1 ∧ (s.handOut i w c part path).2 ≠ .ub := by
  unfold State.handOut
  split
  · exact ⟨I.push hp, by simp [State.push]⟩
  · split
    · exact ⟨I, by simp⟩
    · exact ⟨I.push hp, by simp [State.push]⟩
  · split
    · exact ⟨I.modify _ true (by simp), by simp⟩
    · exact ⟨I.push hp, by simp [State.push]⟩

theorem Owned.step {s : State} (I : Owned s) {o : Op} (ho : KeepsOwners s o) : Owned (s.step o).1 ∧ (s.step o).2 ≠ .ub := by
  cases o with
  | newHolder => exact ⟨I.pushOwner _ _ (by simp), by simp [State.step, State.pushOwner, State.push]⟩
  | newMesh => exact ⟨I.pushOwner _ _ (by simp), by simp [State.step, State.pushOwner, State.push]⟩
  | newGrid => exact ⟨I.pushOwner _ _ (by simp), by simp [State.step, State.pushOwner, State.push]⟩
  | build h ok =>
    simp only [State.step]
    split
    · rename_i w hw
      split
      · have : ok = true := ho
        rw [if_pos this, build_eq (Nat.ne_of_lt (List.getElem?_eq_some_iff.mp hw).1) _ rfl]
        refine ⟨(I.pushOwner .model (some w.part) ?_).handOver h _ ?_, by simp [State.pushOwner, State.push]⟩
        · rintro r ⟨⟩; exact I.part w (List.mem_of_getElem? hw)
        · exact Or.inr ⟨_, _, rfl, List.getElem?_concat_length, rfl⟩
      · exact ⟨I, by simp⟩
    · exact ⟨I, by simp⟩
  | append l h =>
    simp only [State.step]
    split
    · rename_i v w hv hw
      split
      · split
        · rename_i p hp
          rw [if_pos (I.exists (List.mem_of_getElem? hp))]
          refine ⟨?_, by simp⟩
          have J := I.handOver h (if p.owner = .wrapper h then .itself else p.owner) (by
            split
            · exact Or.inl rfl
            · exact I.owner p (List.mem_of_getElem? hp))
          refine ⟨J.owner, J.part, fun e he => ?_, J.settings⟩
          rcases List.mem_append.mp he with h1 | h1
          · exact J.entry e h1
          · rw [List.mem_singleton] at h1; subst h1; exact J.part w (List.mem_of_getElem? hw)
        · rename_i hp
          rw [List.getElem?_eq_none_iff] at hp
          exact absurd (I.part v (List.mem_of_getElem? hv)) (Nat.not_lt.mpr hp)
      · exact ⟨I, by simp⟩
    · exact ⟨I, by simp⟩
  | get c i =>
    simp only [State.step]
    split
    · rename_i w hw
      have hm := List.mem_of_getElem? hw
      split
      · split
        · exact ⟨I, by simp⟩
        · rw [if_pos (I.usable hm)]
          split
          · rename_i part path ht
            exact I.handOut (I.target hm ht)
          · exact ⟨I, by simp⟩
      · exact ⟨I, by simp⟩
    · exact ⟨I, by simp⟩
  | release i => exact ⟨I.modify i false (fun _ => ho), by simp [State.step]⟩
  | use i =>
    simp only [State.step]
    split
    · rename_i w hw
      rw [if_pos (I.usable (List.mem_of_getElem? hw))]
      repeat' split
      all_goals exact ⟨I, by simp⟩
    · exact ⟨I, by simp⟩

theorem run_ub {P : State → Op → Prop} {J : State → Prop} (hJ : ∀ s o, J s → P s o → J (s.step o).1 ∧ (s.step o).2 ≠ .ub) (ops : List Op) :
    ∀ s, J s → Always P s ops → Out.ub ∉ s.run ops := by
  induction ops with
  | nil => intro s _ _ h; simp [State.run] at h
  | cons o os ih =>
    intro s I h
    obtain ⟨J1, J2⟩ := hJ s o I h.1
    have := ih _ J1 h.2
    unfold State.run
    revert J1 J2 this
    rcases s.step o with ⟨s', r⟩
    intro J1 J2 this
    cases r with
    | ub => exact absurd rfl J2
    | _ => simpa using this

theorem owned_empty : Owned {} := ⟨by simp, by simp, by simp, by simp⟩

/-- **C108** (part) A program that holds on to the objects that own memory (holders of settings that were not handed over, models, meshes made in Python), and makes
models of correct settings only, never uses memory that was freed: whatever else it creates, asks for, hands over and releases, in any order. -/
theorem C108_owners_partial (ops : List Op) (h : Always KeepsOwners {} ops) : Out.ub ∉ State.run {} ops :=
  run_ub (P := KeepsOwners) (J := Owned) (fun _ _ I ho => Owned.step I ho) ops {} owned_empty h

/-! ## Programs that hand over settings without other references -/

/-- The memory belongs to the object, or to one that it keeps alive. -/
def Secured (s : State) (part i : Nat) (keeps : List Nat) : Prop :=
  ∃ p, s.parts[part]? = some p ∧ (p.owner = .itself ∨ ∃ o, p.owner = .wrapper o ∧ (o = i ∨ o ∈ keeps))

/-- Every object keeps the owner of its memory alive. -/
structure Kept (s : State) : Prop where
  closed : ∀ (i : Nat) (w : Wrapper), s.wrappers[i]? = some w → ∀ k ∈ w.keeps, ∃ v : Wrapper, s.wrappers[k]? = some v ∧ v.keeps ⊆ w.keeps
  own : ∀ (i : Nat) (w : Wrapper), s.wrappers[i]? = some w → s.alive i = true → w.kind ≠ .holder → Secured s w.part i w.keeps
  entry : ∀ e ∈ s.entries, ∃ p q : Part, s.parts[e.1]? = some p ∧ s.parts[e.2.2]? = some q ∧ q.owner = p.owner
  settings : ∀ p ∈ s.parts, ∀ r, p.settings = some r → ∃ q : Part, s.parts[r]? = some q ∧ q.owner = p.owner

theorem Kept.alive_keeps {s : State} {i : Nat} {w : Wrapper} (hw : s.wrappers[i]? = some w) (hh : w.held = true) {k : Nat}
    (hk : k = i ∨ k ∈ w.keeps) : s.alive k = true := by
  rw [alive_iff]
  rcases hk with rfl | hk
  · exact Or.inr ⟨w, hw, hh⟩
  · exact Or.inl ⟨w, List.mem_of_getElem? hw, hh, hk⟩

theorem Kept.usable {s : State} {i : Nat} {w : Wrapper} (hw : s.wrappers[i]? = some w) (hh : w.held = true) {part : Nat}
    (h : Secured s part i w.keeps) : s.usable part = true := by
  obtain ⟨p, hp, h⟩ := h
  unfold State.usable
  rw [hp]
  rcases h with h | ⟨o, h, ho⟩
  · show s.exists p.owner = true; rw [h]; rfl
  · show s.exists p.owner = true; rw [h]; exact Kept.alive_keeps hw hh ho

theorem Kept.target {s : State} (I : Kept s) {i : Nat} {w : Wrapper} (hS : Secured s w.part i w.keeps) {c : Call} {part : Nat} {path : List Step}
    (h : s.target w c = some (part, path)) : Secured s part i w.keeps := by
  obtain ⟨p, hp, hO⟩ := hS
  have ent : ∀ {r : Nat} {l : List Step} {n e : Nat} {q : Part}, s.parts[r]? = some q → q.owner = p.owner → (s.listOf r l)[n]? = some e → Secured s e i w.keeps := by
    intro r l n e q hq ho h
    obtain ⟨a, b, ha, hb, hab⟩ := I.entry _ (mem_listOf h)
    rw [hq] at ha; obtain rfl := Option.some.inj ha
    exact ⟨b, hb, by rw [hab, ho]; exact hO⟩
  cases c <;> simp only [State.target] at h
  case listItem n =>
    split at h
    · obtain ⟨rfl, _⟩ := Prod.mk.inj (Option.some.inj h); exact ⟨p, hp, hO⟩
    · obtain ⟨e, he, h⟩ := Option.map_eq_some_iff.mp h
      obtain ⟨rfl, _⟩ := Prod.mk.inj h; exact ent hp rfl he
  case listNext n =>
    split at h
    · obtain ⟨rfl, _⟩ := Prod.mk.inj (Option.some.inj h); exact ⟨p, hp, hO⟩
    · obtain ⟨e, he, h⟩ := Option.map_eq_some_iff.mp h
      obtain ⟨rfl, _⟩ := Prod.mk.inj h; exact ent hp rfl he
  case settings =>
    split at h
    · rename_i o r hq
      obtain ⟨rfl, _⟩ := Prod.mk.inj (Option.some.inj h)
      obtain ⟨q, h1, h2⟩ := I.settings _ (List.mem_of_getElem? hq) _ rfl
      rw [hp] at hq; obtain rfl := Option.some.inj hq
      exact ⟨q, h1, by rw [h2]; exact hO⟩
    · simp at h
  case conditionSettings =>
    split at h
    · rename_i o r n hq hpath
      obtain ⟨e, he, h⟩ := Option.map_eq_some_iff.mp h
      obtain ⟨rfl, _⟩ := Prod.mk.inj h
      obtain ⟨q, h1, h2⟩ := I.settings _ (List.mem_of_getElem? hq) _ rfl
      rw [hp] at hq; obtain rfl := Option.some.inj hq
      exact ent h1 h2 he
    · simp at h
  all_goals obtain ⟨rfl, _⟩ := Prod.mk.inj (Option.some.inj h); exact ⟨p, hp, hO⟩

theorem Kept.mono {s s' : State} (I : Kept s) (hw : s'.wrappers = s.wrappers) {h : Nat} {to : Owner} (hp : s'.parts = Life.handOver h to s.parts)
    (hr : OnlyReference s h) (hh : ∀ w, s.wrappers[h]? = some w → w.kind = .holder)
    (he : ∀ e ∈ s'.entries, e ∈ s.entries ∨ ∃ p q, s'.parts[e.1]? = some p ∧ s'.parts[e.2.2]? = some q ∧ q.owner = p.owner) : Kept s' := by
  have hal : ∀ i, s'.alive i = s.alive i := fun i => by unfold State.alive; rw [hw]
  have get : ∀ k p, s.parts[k]? = some p → s'.parts[k]? = some (moved h to p) := fun k p hk => by rw [hp, handOver_get, hk]; rfl
  refine ⟨fun i w hi => by rw [hw] at hi ⊢; exact I.closed i w hi, fun i w hi ha hk => ?_, fun e h1 => ?_, fun p h1 r hr => ?_⟩
  · rw [hw] at hi; rw [hal] at ha
    obtain ⟨p, h1, h2⟩ := I.own i w hi ha hk
    have hne : i ≠ h := fun e => hk (hh w (e ▸ hi))
    have ho := hr i w p hi ha hne h1
    refine ⟨moved h to p, get _ _ h1, ?_⟩
    rw [moved_owner, if_neg ho]; exact h2
  · rcases he e h1 with h1 | h1
    · obtain ⟨p, q, a, b, c⟩ := I.entry e h1
      exact ⟨_, _, get _ _ a, get _ _ b, by rw [moved_owner, moved_owner, c]⟩
    · exact h1
  · rw [hp] at h1
    obtain ⟨q, hq, rfl⟩ := mem_handOver h1
    rw [moved_settings] at hr
    obtain ⟨q', a, b⟩ := I.settings q hq r hr
    exact ⟨_, get _ _ a, by rw [moved_owner, moved_owner, b]⟩

theorem Kept.push {s : State} (I : Kept s) {w : Wrapper}
    (hk : ∀ k ∈ w.keeps, s.alive k = true ∧ ∃ v, s.wrappers[k]? = some v ∧ v.keeps ⊆ w.keeps)
    (hs : w.kind ≠ .holder → Secured s w.part s.wrappers.length w.keeps) : Kept (s.push w).1 := by
  have old : ∀ {i v}, s.wrappers[i]? = some v → (s.wrappers ++ [w])[i]? = some v := fun h => by
    rw [List.getElem?_append_left (List.getElem?_eq_some_iff.mp h).1]; exact h
  have new : ∀ {i v}, (s.wrappers ++ [w])[i]? = some v → s.wrappers[i]? = some v ∨ i = s.wrappers.length ∧ v = w := fun {i v} h => by
    by_cases hi : i < s.wrappers.length
    · rw [List.getElem?_append_left hi] at h; exact Or.inl h
    · rw [List.getElem?_append_right (Nat.le_of_not_lt hi)] at h
      obtain ⟨h1, h2⟩ := List.getElem?_eq_some_iff.mp h
      have h1' : i - s.wrappers.length < 1 := h1
      have hi' : i = s.wrappers.length := by omega
      subst hi'
      simp at h2
      exact Or.inr ⟨rfl, h2.symm⟩
  have hal : ∀ i, i < s.wrappers.length → (s.push w).1.alive i = true → s.alive i = true := by
    intro i hi h
    rw [alive_iff] at h
    rcases h with ⟨v, hv, h1, h2⟩ | ⟨v, hv, h1⟩
    · rcases List.mem_append.mp hv with h | h
      · exact (alive_iff _ _).mpr (Or.inl ⟨v, h, h1, h2⟩)
      · rw [List.mem_singleton] at h; subst h; exact (hk i h2).1
    · rcases new hv with h | ⟨h, _⟩
      · exact (alive_iff _ _).mpr (Or.inr ⟨v, h, h1⟩)
      · omega
  refine ⟨fun i v hv k hkv => ?_, fun i v hv ha hh => ?_, I.entry, I.settings⟩
  · rcases new hv with h | ⟨_, rfl⟩
    · obtain ⟨u, h1, h2⟩ := I.closed i v h k hkv
      exact ⟨u, old h1, h2⟩
    · obtain ⟨_, u, h1, h2⟩ := hk k hkv
      exact ⟨u, old h1, h2⟩
  · rcases new hv with h | ⟨rfl, rfl⟩
    · exact I.own i v h (hal i (List.getElem?_eq_some_iff.mp h).1 ha) hh
    · exact hs hh

theorem Kept.pushOwner {s : State} (I : Kept s) (k : Kind) (t : Option Nat)
    (ht : ∀ r, t = some r → ∃ q, s.parts[r]? = some q ∧ q.owner = .wrapper s.wrappers.length) : Kept (s.pushOwner k t).1 := by
  have old : ∀ {i v}, s.parts[i]? = some v → (s.parts ++ [⟨.wrapper s.wrappers.length, t⟩])[i]? = some v := fun h => by
    rw [List.getElem?_append_left (List.getElem?_eq_some_iff.mp h).1]; exact h
  have J : Kept { s with parts := s.parts ++ [⟨.wrapper s.wrappers.length, t⟩] } := by
    refine ⟨I.closed, fun i w hw ha hk => ?_, fun e he => ?_, fun p hp r hr => ?_⟩
    · obtain ⟨p, h1, h2⟩ := I.own i w hw ha hk
      exact ⟨p, old h1, h2⟩
    · obtain ⟨p, q, a, b, c⟩ := I.entry e he
      exact ⟨p, q, old a, old b, c⟩
    · rcases List.mem_append.mp hp with h | h
      · obtain ⟨q, a, b⟩ := I.settings p h r hr
        exact ⟨q, old a, b⟩
      · rw [List.mem_singleton] at h; subst h
        obtain ⟨q, a, b⟩ := ht r hr
        exact ⟨q, old a, b⟩
  refine J.push (fun k hk => by simp at hk) fun _ => ⟨_, List.getElem?_concat_length, Or.inr ⟨_, rfl, Or.inl rfl⟩⟩

theorem Kept.modify {s : State} (I : Kept s) (j : Nat) (b : Bool) (hb : b = true → s.alive j = true) :
    Kept { s with wrappers := s.wrappers.modify j fun v => { v with held := b } } := by
  have new : ∀ {i v}, (s.wrappers.modify j fun v => { v with held := b })[i]? = some v →
      ∃ u, s.wrappers[i]? = some u ∧ u.kind = v.kind ∧ u.part = v.part ∧ u.keeps = v.keeps ∧ (v.held = true → u.held = true ∨ i = j ∧ b = true) := by
    intro i v h
    rw [List.getElem?_modify] at h
    obtain ⟨u, hu, e⟩ := Option.map_eq_some_iff.mp h
    refine ⟨u, hu, ?_⟩
    subst e
    by_cases hij : j = i
    · rw [if_pos hij]; exact ⟨rfl, rfl, rfl, fun h => Or.inr ⟨hij.symm, h⟩⟩
    · rw [if_neg hij]; exact ⟨rfl, rfl, rfl, Or.inl⟩
  have keep : ∀ i, b = true → (∃ u, s.wrappers[j]? = some u ∧ (i = j ∨ i ∈ u.keeps)) → s.alive i = true := by
    rintro i h ⟨u, hu, hi⟩
    rcases hi with rfl | hi
    · exact hb h
    · rcases (alive_iff _ _).mp (hb h) with ⟨w, hw, hh, hj⟩ | ⟨w, hw, hh⟩
      · obtain ⟨n, hn⟩ := List.getElem?_of_mem hw
        obtain ⟨u', h1, h2⟩ := I.closed n w hn j hj
        rw [hu] at h1; obtain rfl := Option.some.inj h1
        exact (alive_iff _ _).mpr (Or.inl ⟨w, hw, hh, h2 hi⟩)
      · rw [hu] at hw; obtain rfl := Option.some.inj hw
        exact (alive_iff _ _).mpr (Or.inl ⟨u, List.mem_of_getElem? hu, hh, hi⟩)
  have hal : ∀ i, State.alive { s with wrappers := s.wrappers.modify j fun v => { v with held := b } } i = true → s.alive i = true := by
    intro i h
    rcases (alive_iff _ _).mp h with ⟨v, hv, h1, h2⟩ | ⟨v, hv, h1⟩
    · obtain ⟨n, hn⟩ := List.getElem?_of_mem hv
      obtain ⟨u, hu, _, _, e, h3⟩ := new hn
      rcases h3 h1 with h3 | ⟨rfl, h4⟩
      · exact (alive_iff _ _).mpr (Or.inl ⟨u, List.mem_of_getElem? hu, h3, e ▸ h2⟩)
      · exact keep i h4 ⟨u, hu, Or.inr (e ▸ h2)⟩
    · obtain ⟨u, hu, _, _, e, h3⟩ := new hv
      rcases h3 h1 with h3 | ⟨rfl, h4⟩
      · exact (alive_iff _ _).mpr (Or.inr ⟨u, hu, h3⟩)
      · exact hb h4
  refine ⟨fun i v hv k hk => ?_, fun i v hv ha hh => ?_, I.entry, I.settings⟩
  · obtain ⟨u, hu, _, _, e, _⟩ := new hv
    obtain ⟨x, h1, h2⟩ := I.closed i u hu k (e ▸ hk)
    refine ⟨if j = k then { x with held := b } else x, ?_, ?_⟩
    · show (s.wrappers.modify j _)[k]? = _
      rw [List.getElem?_modify, h1]; rfl
    · rw [← e]; split <;> exact h2
  · obtain ⟨u, hu, h1, h2, h3, _⟩ := new hv
    have := I.own i u hu (hal i ha) (h1 ▸ hh)
    rw [← h2, ← h3]; exact this

theorem Kept.handOut {s : State} (I : Kept s) {i : Nat} {w : Wrapper} (hw : s.wrappers[i]? = some w) (hh : w.held = true) {c : Call} (hc : ¬ Weak c)
    {part : Nat} {path : List Step} (hS : Secured s part i w.keeps) :
    Kept (s.handOut i w c part path).1 ∧ (s.handOut i w c part path).2 ≠ .ub := by
  have P : ∀ k, Kept (s.push ⟨k, part, path, i :: w.keeps, true⟩).1 := by
    intro k
    refine I.push (fun n hn => ?_) fun _ => ?_
    · rcases List.mem_cons.mp hn with rfl | hn
      · exact ⟨Kept.alive_keeps hw hh (Or.inl rfl), w, hw, fun x hx => List.mem_cons_of_mem _ hx⟩
      · obtain ⟨v, h1, h2⟩ := I.closed i w hw n hn
        exact ⟨Kept.alive_keeps hw hh (Or.inr hn), v, h1, fun x hx => List.mem_cons_of_mem _ (h2 hx)⟩
    · obtain ⟨p, h1, h2⟩ := hS
      refine ⟨p, h1, h2.imp id ?_⟩
      rintro ⟨o, h3, h4⟩
      exact ⟨o, h3, Or.inr (List.mem_cons.mpr h4)⟩
  unfold State.handOut
  split
  · rename_i hp
    exfalso
    revert hp hc
    cases c <;> simp [Call.policy, Weak]
  · split
    · exact ⟨I, by simp⟩
    · exact ⟨P _, by simp [State.push]⟩
  · split
    · rename_i j hj
      obtain ⟨v, _, _, _, _, ha⟩ := registered_spec hj
      exact ⟨I.modify j true fun _ => ha, by simp⟩
    · exact ⟨P _, by simp [State.push]⟩

theorem full_spec {s : State} {h : Nat} {w : Wrapper} (hf : s.full h w = true) : ∃ p, s.parts[w.part]? = some p ∧ p.owner = .wrapper h := by
  unfold State.full at hf
  revert hf
  cases hp : s.parts[w.part]? with
  | none => intro h; simp at h
  | some p => intro h; exact ⟨p, rfl, of_decide_eq_true h⟩

theorem Kept.step {s : State} (I : Kept s) {o : Op} (ho : Tidy s o) : Kept (s.step o).1 ∧ (s.step o).2 ≠ .ub := by
  cases o with
  | newHolder => exact ⟨I.pushOwner _ _ (by simp), by simp [State.step, State.pushOwner, State.push]⟩
  | newMesh => exact ⟨I.pushOwner _ _ (by simp), by simp [State.step, State.pushOwner, State.push]⟩
  | newGrid => exact ⟨I.pushOwner _ _ (by simp), by simp [State.step, State.pushOwner, State.push]⟩
  | build h ok =>
    simp only [State.step]
    split
    · rename_i w hw
      split
      · rename_i hc
        simp only [Bool.and_eq_true, decide_eq_true_eq] at hc
        obtain ⟨⟨hh, hk⟩, hf⟩ := hc
        obtain ⟨q, hq, hqo⟩ := full_spec hf
        have hkind : ∀ w, s.wrappers[h]? = some w → w.kind = .holder := fun w' h' => by
          rw [hw] at h'; obtain rfl := Option.some.inj h'; exact hk
        split
        · have J : Kept { s with parts := Life.handOver h (.wrapper s.wrappers.length) s.parts } :=
            I.mono rfl rfl ho hkind fun e he => Or.inl he
          refine ⟨J.pushOwner .model (some w.part) ?_, by simp [State.pushOwner, State.push]⟩
          rintro r ⟨⟩
          refine ⟨moved h (.wrapper s.wrappers.length) q, ?_, ?_⟩
          · show (Life.handOver h _ s.parts)[w.part]? = _
            rw [handOver_get, hq]; rfl
          · rw [moved_owner, if_pos hqo]
        · exact ⟨I.mono rfl rfl ho hkind fun e he => Or.inl he, by simp⟩
      · exact ⟨I, by simp⟩
    · exact ⟨I, by simp⟩
  | append l h =>
    simp only [State.step]
    split
    · rename_i v w hv hw
      split
      · rename_i hc
        simp only [Bool.and_eq_true, decide_eq_true_eq] at hc
        obtain ⟨⟨⟨⟨h1, h2⟩, hh⟩, hk⟩, hf⟩ := hc
        obtain ⟨q, hq, hqo⟩ := full_spec hf
        have hkind : ∀ w, s.wrappers[h]? = some w → w.kind = .holder := fun w' h' => by
          rw [hw] at h'; obtain rfl := Option.some.inj h'; exact hk
        have hal : s.alive l = true := Kept.alive_keeps hv h1 (Or.inl rfl)
        have hS := I.own l v hv hal (by rw [h2]; simp)
        have hus := Kept.usable hv h1 hS
        obtain ⟨p, hp, _⟩ := hS
        have hne : l ≠ h := by
          rintro rfl
          rw [hv] at hw; obtain rfl := Option.some.inj hw
          rw [h2] at hk; simp at hk
        have hpo : p.owner ≠ .wrapper h := ho l v p hv hal hne hp
        unfold State.usable at hus
        rw [hp] at hus ⊢
        simp only at hus ⊢
        rw [if_pos hus, if_neg hpo]
        refine ⟨I.mono (h := h) (to := p.owner) rfl rfl ho hkind fun e he => ?_, by simp⟩
        rcases List.mem_append.mp he with he | he
        · exact Or.inl he
        · rw [List.mem_singleton] at he; subst he
          refine Or.inr ⟨moved h p.owner p, moved h p.owner q, ?_, ?_, ?_⟩
          · show (Life.handOver h _ s.parts)[v.part]? = _
            rw [handOver_get, hp]; rfl
          · show (Life.handOver h _ s.parts)[w.part]? = _
            rw [handOver_get, hq]; rfl
          · rw [moved_owner, moved_owner, if_pos hqo, if_neg hpo]
      · exact ⟨I, by simp⟩
    · exact ⟨I, by simp⟩
  | get c i =>
    simp only [State.step]
    split
    · rename_i w hw
      split
      · rename_i hc
        simp only [Bool.and_eq_true, decide_eq_true_eq] at hc
        split
        · exact ⟨I, by simp⟩
        · rename_i hn
          have hS : Secured s w.part i w.keeps := by
            by_cases hk : w.kind = .holder
            · have hf : s.full i w = true := by
                cases hf : s.full i w with
                | true => rfl
                | false => exact absurd ⟨hk, hf⟩ hn
              obtain ⟨q, hq, hqo⟩ := full_spec hf
              exact ⟨q, hq, Or.inr ⟨i, hqo, Or.inl rfl⟩⟩
            · exact I.own i w hw (Kept.alive_keeps hw hc.1 (Or.inl rfl)) hk
          rw [if_pos (Kept.usable hw hc.1 hS)]
          split
          · rename_i part path ht
            exact I.handOut hw hc.1 ho (I.target hS ht)
          · exact ⟨I, by simp⟩
      · exact ⟨I, by simp⟩
    · exact ⟨I, by simp⟩
  | release i => exact ⟨I.modify i false (by simp), by simp [State.step]⟩
  | use i =>
    simp only [State.step]
    split
    · rename_i w hw
      split
      · rename_i hh
        split
        · exact ⟨I, by simp⟩
        · rename_i hk
          rw [if_pos (Kept.usable hw hh (I.own i w hw (Kept.alive_keeps hw hh (Or.inl rfl)) hk))]
          exact ⟨I, by simp⟩
      · exact ⟨I, by simp⟩
    · exact ⟨I, by simp⟩

theorem kept_empty : Kept {} := ⟨by simp, by simp, by simp, by simp⟩

/-- **C108** (part) A program that never asks for elements of a model, iterators of condition segments and triangles of a mesh, and that hands over settings only if it
has no other references to them, never uses memory that was freed: it may release all objects in any order, also models, meshes and holders. -/
theorem C108_tidy_partial (ops : List Op) (h : Always Tidy {} ops) : Out.ub ∉ State.run {} ops :=
  run_ub (P := Tidy) (J := Kept) (fun _ _ I ho => Kept.step I ho) ops {} kept_empty h

/-! ## What goes wrong otherwise -/

/-- **C108** is false of the code: an element of a model is deleted with the model although the program holds the element. -/
theorem C108_elements_false_of_code : ∃ ops, State.run {} ops =
    [.object 0, .object 1, .object 2, .done, .ub] ∧ ops = [.newHolder, .build 0 true, .get (.elements 0) 1, .release 1, .use 2] :=
  ⟨_, by decide +kernel, rfl⟩

/-- **C108** is false of the code: a triangle taken from a mesh does not keep the mesh. -/
theorem C108_triangles_false_of_code : ∃ ops, State.run {} ops =
    [.object 0, .object 1, .object 2, .done, .done, .ub] ∧ ops = [.newMesh, .get .triangles 0, .get (.triangleNext 3) 1, .release 1, .release 0, .use 2] :=
  ⟨_, by decide +kernel, rfl⟩

/-- **C108** is false of the code: a segment of a condition that a loop gave does not keep the model, while a segment taken by its index does. -/
theorem C108_segments_false_of_code : ∃ byLoop byIndex, State.run {} byLoop =
    [.object 0, .object 1, .object 2, .object 3, .object 4, .object 5, .done, .done, .done, .done, .ub] ∧ State.run {} byIndex =
    [.object 0, .object 1, .object 2, .object 3, .object 4, .done, .done, .done, .done] ∧
    byLoop = [.newHolder, .build 0 true, .get (.conditions 0) 1, .get .segments 2, .get .segmentIter 3, .get (.segmentNext 0) 4,
      .release 1, .release 2, .release 3, .release 4, .use 5] ∧
    byIndex = [.newHolder, .build 0 true, .get (.conditions 0) 1, .get .segments 2, .get (.segmentItem 0) 3, .release 1, .release 2, .release 3, .use 4] :=
  ⟨_, _, by decide +kernel, by decide +kernel, rfl, rfl⟩

/-- **C108** is false of the code: settings that were taken from the holder before the model was made are deleted with the model.  Asking the model for its settings does
not help, because it gives the same Python object; it helps if there is no older one. -/
theorem C108_settings_false_of_code : ∃ older newer, State.run {} older =
    [.object 0, .object 1, .object 2, .object 1, .done, .ub] ∧ State.run {} newer = [.object 0, .object 1, .object 2, .done, .done] ∧
    older = [.newHolder, .get .getObject 0, .build 0 true, .get .settings 2, .release 2, .use 1] ∧
    newer = [.newHolder, .build 0 true, .get .settings 1, .release 1, .use 2] :=
  ⟨_, _, by decide +kernel, by decide +kernel, rfl, rfl⟩

/-- **C108** is false of the code: if the check of the settings fails they are deleted, although the program holds all objects. -/
theorem C108_refused_false_of_code : ∃ ops, State.run {} ops = [.object 0, .object 1, .raised, .ub] ∧
    ops = [.newHolder, .get .getObject 0, .build 0 false, .use 1] := ⟨_, by decide +kernel, rfl⟩

/-- **C108** is false of the code: asking a background grid for its elements never gives a list. -/
theorem C108_grid_false_of_code (s : State) (i j : Nat) : (s.step (.get .gridElements i)).2 ≠ .object j := by
  simp only [State.step]
  repeat' split
  all_goals simp_all [State.handOut, Call.policy, Call.result, Call.source, State.target]

/-- The exception for a grid that exists. -/
example : State.run {} [.newGrid, .get .gridElements 0] = [.object 0, .raised] := by decide +kernel

/-! ## Examples -/

/-- A program with settings, conditions, a model, elements, points and segments that holds on to the model. -/
def exOwners : List Op :=
  [.newHolder, .get .getObject 0, .get (.getList 0) 1, .newHolder, .append 2 3, .release 3, .get (.listItem 0) 2, .build 0 true, .release 0,
    .get (.elements 4) 5, .get .elementPoints 6, .get (.pointItem 2) 7, .use 8, .get (.conditions 0) 5, .get .conditionSettings 9, .use 4, .get .segments 9,
    .get .segmentIter 10, .release 10, .release 9, .get (.segmentNext 1) 11, .get .segmentMesh 12, .get .triangles 13, .get (.triangleNext 0) 14, .use 15]

example : Always KeepsOwners {} exOwners ∧ State.run {} exOwners =
    [.object 0, .object 1, .object 2, .object 3, .done, .done, .object 4, .object 5, .done, .object 6, .object 7, .object 8, .done, .object 9, .object 4, .done,
      .object 10, .object 11, .done, .done, .object 12, .object 13, .object 14, .object 15, .done] := by
  refine ⟨?_, by decide +kernel⟩
  simp only [exOwners, Always, KeepsOwners, and_true, true_and]
  decide +kernel

/-- A program that releases its model and goes on with what it took from it. -/
def exTidy : List Op :=
  [.newHolder, .get .getObject 0, .get (.getList 0) 1, .release 1, .newHolder, .append 2 3, .release 2, .release 3, .build 0 true, .release 0, .get (.conditions 0) 4,
    .get .conditionSettings 5, .get .segments 5, .get (.segmentItem 1) 7, .get .segmentMesh 8, .get .settings 4, .release 4, .release 5, .release 7, .release 8,
    .use 9, .use 6, .use 10]

/-- `OnlyReference`, checked object by object. -/
def checkOnly (s : State) (h : Nat) : Bool :=
  (List.range s.wrappers.length).all fun i => !s.alive i || decide (i = h) ||
    decide (((s.wrappers[i]?.bind fun w => s.parts[w.part]?).map Part.owner) ≠ some (.wrapper h))

theorem checkOnly_spec {s : State} {h : Nat} (hc : checkOnly s h = true) : OnlyReference s h := by
  intro i w p hw ha hi hp ho
  have := List.all_eq_true.mp hc i (List.mem_range.mpr (List.getElem?_eq_some_iff.mp hw).1)
  rw [ha, hw] at this
  simp [hi, hp, ho] at this

example : Always Tidy {} exTidy := by
  simp only [exTidy, Always, Tidy, Weak, and_true, true_and, not_false_eq_true]
  exact ⟨checkOnly_spec (by decide +kernel), checkOnly_spec (by decide +kernel)⟩

example : State.run {} exTidy =
    [.object 0, .object 1, .object 2, .done, .object 3, .done, .done, .done, .object 4, .done, .object 5, .object 6, .object 7, .object 8, .object 9, .object 10, .done, .done,
      .done, .done, .done, .done, .done] := by decide +kernel

end QuESo.Life
