import Verif.Spec.EmbeddedModel
import Verif.Proofs.BackgroundGrid
import Mathlib.Algebra.BigOperators.Group.List.Basic
import Mathlib.Tactic.Ring
import Mathlib.Tactic.Linarith

namespace QuESo.Embedded
open QuESo.BGrid QuESo.Mapping QuESo.Spec
variable {K : Type _} [Field K] [LinearOrder K]

/-- The call that builds, as a log entry. -/
def entryOf (inp : VolumeInput K) (i : Nat) : Option (Kind × Nat × Elem K) :=
  (callOf inp i).2.2.map fun e => ((callOf inp i).1, i + 1, e)

theorem callOf_id (inp : VolumeInput K) (i : Nat) : (callOf inp i).2.1 = i + 1 := by
  unfold callOf; split <;> rfl

theorem entryOf_id {inp : VolumeInput K} {i : Nat} {x} (h : entryOf inp i = some x) : x.2.1 = i + 1 := by
  unfold entryOf at h
  cases hc : (callOf inp i).2.2 with
  | none => simp [hc] at h
  | some e => simp [hc] at h; rw [← h]

/-- The loop succeeds when the ids are new and distinct, and the log grows by the entries built. -/
theorem makeAll_inv (inp : VolumeInput K) : ∀ (order : List Nat) (s : State (Elem K)) l, Inv s l →
    s.locked = false → order.Nodup → (∀ i ∈ order, ∀ x ∈ l, x.2.1 ≠ i + 1) →
    ∃ s', makeAll inp order s = some s' ∧ Inv s' (l ++ order.filterMap (entryOf inp)) ∧ s'.locked = false := by
  intro order
  induction order with
  | nil => intro s l h hl _ _; exact ⟨s, rfl, by simpa using h, hl⟩
  | cons i rest ih =>
    intro s l h hl hnd hnew
    obtain ⟨hni, hnd'⟩ := List.nodup_cons.mp hnd
    unfold makeAll
    simp only [callOf_id]
    cases hc : (callOf inp i).2.2 with
    | none =>
      have he : entryOf inp i = none := by simp [entryOf, hc]
      have : s.make (callOf inp i).1 (i + 1) none = (s, .notBuilt) := by simp [State.make, hl]
      rw [this]
      obtain ⟨s', h1, h2, h3⟩ := ih s l h hl hnd' (fun j hj => hnew j (List.mem_cons_of_mem _ hj))
      exact ⟨s', h1, by rw [List.filterMap_cons, he]; exact h2, h3⟩
    | some e =>
      have he : entryOf inp i = some ((callOf inp i).1, i + 1, e) := by simp [entryOf, hc]
      obtain ⟨k1, k2, k3⟩ := inv_make h hl (callOf inp i).1 (i + 1) e
      have hany : l.any (fun x => x.2.1 == i + 1) = false := by
        rw [List.any_eq_false]
        intro x hx
        simpa using hnew i (List.mem_cons_self ..) x hx
      rw [hany] at k3
      have hlog : addLog l ((callOf inp i).1, i + 1, e) = l ++ [((callOf inp i).1, i + 1, e)] := by
        unfold addLog; rw [hany]; rfl
      rw [hlog] at k1
      generalize hm : s.make (callOf inp i).1 (i + 1) (some e) = r at k1 k2 k3
      obtain ⟨s1, o⟩ := r
      simp only [Bool.false_eq_true, if_false] at k3
      subst k3
      obtain ⟨s', h1, h2, h3⟩ := ih s1 _ k1 k2 hnd' (by
        intro j hj x hx
        rcases List.mem_append.mp hx with hx | hx
        · exact hnew j (List.mem_cons_of_mem _ hj) x hx
        · simp only [List.mem_singleton] at hx
          subst hx
          intro h
          simp only [Nat.add_right_cancel_iff] at h
          subst h; exact hni hj)
      refine ⟨s', h1, ?_, h3⟩
      rw [List.filterMap_cons, he]
      simpa using h2

/-- What the post-processing of generalised rules does to a log entry. -/
def withGgq (inp : VolumeInput K) (full : Nat → Bool) (x : Kind × Nat × Elem K) : Kind × Nat × Elem K :=
  match x.1 with
  | .untrimmed => (x.1, x.2.1, { x.2.2 with points := x.2.2.points ++ inp.ggqPts full x.2.1 })
  | .trimmed => x

theorem withGgq_kind (inp : VolumeInput K) (full) (x) : (withGgq inp full x).1 = x.1 := by
  unfold withGgq; split <;> rfl
theorem withGgq_id (inp : VolumeInput K) (full) (x) : (withGgq inp full x).2.1 = x.2.1 := by
  unfold withGgq; split <;> rfl

theorem proj_map {α β : Type _} (k : Kind) (l : List (Kind × Nat × α)) (g : Kind × Nat × α → Kind × Nat × β)
    (hk : ∀ x, (g x).1 = x.1) :
    proj k (l.map g) = (l.filter (isKind k)).map (fun x => (g x).2) := by
  unfold proj
  rw [List.filter_map, List.map_map]
  have : (isKind k ∘ g : Kind × Nat × α → Bool) = isKind k := by
    funext x; simp [isKind, hk]
  rw [this]; rfl

theorem inv_ggq (inp : VolumeInput K) {s : State (Elem K)} {l} (h : Inv s l) :
    Inv (assembleGgq inp s) (l.map (withGgq inp (fun id => (s.getElement .untrimmed id).present))) := by
  set full : Nat → Bool := fun id => (s.getElement .untrimmed id).present with hfull
  have hids : (l.map (withGgq inp full)).map (·.2.1) = l.map (·.2.1) := by
    rw [List.map_map]; exact List.map_congr_left (fun x _ => withGgq_id inp full x)
  have hpu : proj .untrimmed (l.map (withGgq inp full)) =
      (proj .untrimmed l).map (fun e => (e.1, { e.2 with points := e.2.points ++ inp.ggqPts full e.1 })) := by
    rw [proj_map _ _ _ (withGgq_kind inp full)]
    unfold proj
    rw [List.map_map]
    apply List.map_congr_left
    intro x hx
    have := (List.mem_filter.mp hx).2
    simp only [isKind, beq_iff_eq] at this
    simp [withGgq, this]
  have hpt : proj .trimmed (l.map (withGgq inp full)) = proj .trimmed l := by
    rw [proj_map _ _ _ (withGgq_kind inp full)]
    unfold proj
    apply List.map_congr_left
    intro x hx
    have := (List.mem_filter.mp hx).2
    simp only [isKind, beq_iff_eq] at this
    simp [withGgq, this]
  refine ⟨by rw [hids]; exact h.nodup, ?_, ?_, ?_, ?_⟩
  · rw [hpu, ← h.unt]; rfl
  · rw [hpt, ← h.tri]; rfl
  · intro id
    have h1 : (assembleGgq inp s).find id = s.find id := rfl
    rw [h1, h.keys id, List.any_map]
    congr 1
    funext x
    simp [withGgq_id]
  · intro id loc hloc
    obtain ⟨k, a, h1, h2, h3⟩ := h.look id loc hloc
    cases k with
    | trimmed =>
      refine ⟨.trimmed, a, ?_, h2, ?_⟩
      · exact List.mem_map.mpr ⟨_, h1, rfl⟩
      · rw [hpt]; exact h3
    | untrimmed =>
      refine ⟨.untrimmed, { a with points := a.points ++ inp.ggqPts full id }, ?_, h2, ?_⟩
      · exact List.mem_map.mpr ⟨_, h1, rfl⟩
      · rw [hpu, List.getElem?_map, h3]; rfl

theorem views_all_perm {α : Type _} {s : State α} {l} (h : Inv s l) : (s.views .all).Perm l := by
  have hproj : ∀ k, (proj k l).map (fun e => (k, e.1, e.2)) = l.filter (isKind k) := by
    intro k
    unfold proj
    rw [List.map_map]
    have : ∀ e ∈ l.filter (isKind k), ((fun e => (k, e.1, e.2)) ∘ fun x => x.2) e = _root_.id e := by
      intro e he
      have := (List.mem_filter.mp he).2
      simp only [isKind, beq_iff_eq] at this
      simp [← this]
    rw [List.map_congr_left this, List.map_id]
  simp only [State.views]
  rw [h.unt, h.tri, hproj, hproj]
  have : (isKind .trimmed : Kind × Nat × α → Bool) = fun x => !(isKind .untrimmed x) := by
    funext x; obtain ⟨k, r⟩ := x; cases k <;> rfl
  rw [this]
  exact List.filter_append_perm _ l

/-! ### Sums -/

theorem foldl_add_eq {β : Type _} (f : β → K) (l : List β) (a : K) :
    l.foldl (fun a p => a + f p) a = a + (l.map f).sum := by
  induction l generalizing a with
  | nil => simp
  | cons x l ih => rw [List.foldl_cons, ih]; simp [add_assoc]

theorem weight_physical (e : Elem K) : detJ e.bounds * weightSum e.points = physicalWeight e := by
  unfold weightSum physicalWeight
  rw [foldl_add_eq, zero_add]
  simp only [ipToGlobal]
  induction e.points with
  | nil => simp
  | cons p ps ih => simp only [List.map_cons, List.sum_cons]; rw [← ih]; ring

theorem accumulate_eq (v : List (Kind × Nat × Elem K)) :
    accumulate v = ((v.map fun x => physicalWeight x.2.2).sum,
      (v.map fun x => fullPoints (x.1, x.2.2)).sum, (v.map fun x => trimmedPoints (x.1, x.2.2)).sum) := by
  unfold accumulate
  suffices H : ∀ a : K × Nat × Nat, v.foldl (fun a e =>
      let r := a.1 + detJ e.2.2.bounds * weightSum e.2.2.points
      match e.1 with
      | .trimmed => (r, a.2.1, a.2.2 + e.2.2.points.length)
      | .untrimmed => (r, a.2.1 + e.2.2.points.length, a.2.2)) a =
      (a.1 + (v.map fun x => physicalWeight x.2.2).sum,
       a.2.1 + (v.map fun x => fullPoints (x.1, x.2.2)).sum,
       a.2.2 + (v.map fun x => trimmedPoints (x.1, x.2.2)).sum) by
    exact (H (0, 0, 0)).trans (by simp)
  induction v with
  | nil => intro a; simp
  | cons x v ih =>
    intro a
    rw [List.foldl_cons, ih]
    obtain ⟨k, id, e⟩ := x
    simp only [weight_physical]
    cases k <;> simp [fullPoints, trimmedPoints, add_assoc]

theorem sum_filterMap {ι β γ : Type _} [AddMonoid γ] (f : ι → Option β) (g : β → γ) (l : List ι) :
    ((l.filterMap f).map g).sum = (l.map fun i => ((f i).map g).getD 0).sum := by
  induction l with
  | nil => rfl
  | cons i l ih =>
    rw [List.filterMap_cons, List.map_cons, List.sum_cons]
    cases h : f i with
    | none => simp only [Option.map_none, Option.getD_none, zero_add]; exact ih
    | some b => simp only [List.map_cons, List.sum_cons, Option.map_some, Option.getD_some]; rw [ih]

/-! ### The result of the volume computation -/

theorem active_nodup (inp : VolumeInput K) : (activeIndices inp).Nodup :=
  List.nodup_range.filter _

theorem scheduled_nodup (inp : VolumeInput K) : (scheduled inp).Nodup :=
  (active_nodup inp).sublist (List.take_sublist _ _)

theorem scheduled_lt {inp : VolumeInput K} {i : Nat} (h : i ∈ scheduled inp) : i < inp.classes.length := by
  have h1 := (List.take_sublist _ _).subset h
  exact List.mem_range.mp (List.mem_filter.mp h1).1

theorem mem_active {inp : VolumeInput K} {i : Nat} : i ∈ activeIndices inp ↔
    inp.classes[i]? = some .trimmed ∨ inp.classes[i]? = some .inside := by
  unfold activeIndices
  rw [List.mem_filter, List.mem_range]
  constructor
  · rintro ⟨_, h⟩
    split at h <;> simp_all
  · intro h
    have hl : i < inp.classes.length := by
      rcases h with h | h <;> exact (List.getElem?_eq_some_iff.mp h).1
    refine ⟨hl, ?_⟩
    rcases h with h | h <;> simp [h]

/-- What happens to the entries after the loop. -/
def post (inp : VolumeInput K) (s1 : State (Elem K)) (x : Kind × Nat × Elem K) : Kind × Nat × Elem K :=
  if inp.usesGgq then withGgq inp (fun id => (s1.getElement .untrimmed id).present) x else x

theorem post_kind (inp : VolumeInput K) (s1) (x) : (post inp s1 x).1 = x.1 := by
  unfold post; split
  · exact withGgq_kind ..
  · rfl
theorem post_id (inp : VolumeInput K) (s1) (x) : (post inp s1 x).2.1 = x.2.1 := by
  unfold post; split
  · exact withGgq_id ..
  · rfl

theorem volume_result (debug : Bool) (inp : VolumeInput K) (order : List Nat) (hnd : order.Nodup) :
    ∃ s1 s, computeVolume debug inp order {} = some (s, volumeInfo inp s) ∧
      Inv s1 (order.filterMap (entryOf inp)) ∧
      Inv s ((order.filterMap (entryOf inp)).map (post inp s1)) ∧ s.locked = true := by
  obtain ⟨s1, h1, h2, h3⟩ := makeAll_inv inp order {} [] inv_init rfl hnd (by simp)
  simp only [List.nil_append] at h2
  have h2l : Inv s1.lock _ := inv_lock h2
  have e0 : (if debug then ({} : State (Elem K)) else { ({} : State (Elem K)) with locked := false }) = {} := by
    cases debug <;> rfl
  by_cases hg : inp.usesGgq = true
  · refine ⟨s1.lock, assembleGgq inp s1.lock, ?_, h2l, ?_, rfl⟩
    · unfold computeVolume
      simp only [e0, h1, hg, if_true]
    · have := inv_ggq inp h2l
      have hpost : post inp s1.lock = withGgq inp (fun id => (s1.lock.getElement .untrimmed id).present) := by
        funext x; simp [post, hg]
      rw [hpost]; exact this
  · refine ⟨s1.lock, s1.lock, ?_, h2l, ?_, rfl⟩
    · unfold computeVolume
      simp only [e0, h1, hg]; rfl
    · have hpost : post inp s1.lock = id := by
        funext x; simp [post, hg]
      rw [hpost, List.map_id]; exact h2l

theorem inv_numActive {s : State (Elem K)} {l} (h : Inv s l) : s.numActive = l.length := by
  rw [State.numActive, h.unt, h.tri, proj_length_add]

theorem inv_numTrimmed {s : State (Elem K)} {l} (h : Inv s l) :
    s.numTrimmed = (l.filter (isKind .trimmed)).length := by
  rw [State.numTrimmed, h.tri, proj, List.length_map]

theorem inv_numUntrimmed {s : State (Elem K)} {l} (h : Inv s l) :
    s.numUntrimmed = (l.filter (isKind .untrimmed)).length := by
  rw [State.numUntrimmed, h.unt, proj, List.length_map]

theorem wsub_eq {a b : Nat} (h : b ≤ a) (ha : a < 2 ^ 64) : wsub a b = a - b := by
  unfold wsub; omega

theorem present_untrimmed {s : State (Elem K)} {l} (h : Inv s l) (id : Nat) :
    (s.getElement .untrimmed id).present = true ↔ ∃ e, (Kind.untrimmed, id, e) ∈ l := by
  rw [getElement_of_inv h]
  constructor
  · intro hp
    cases hf : l.find? (fun e => e.2.1 == id) with
    | none => simp [hf, Look.present] at hp
    | some x =>
      obtain ⟨k, i, a⟩ := x
      have hm := List.mem_of_find?_eq_some hf
      have hi : i = id := by simpa using List.find?_some hf
      subst hi
      cases k with
      | trimmed => simp [hf, accepts, Look.present] at hp
      | untrimmed => exact ⟨a, hm⟩
  · rintro ⟨e, he⟩
    rw [find_of_nodup h.nodup he]
    simp [accepts, Look.present]

/-- The log entry the specification asks for. -/
def wantedEntry (inp : VolumeInput K) (i : Nat) : Option (Kind × Nat × Elem K) :=
  (wantedElement inp i).map fun x => (x.1, i + 1, x.2)

theorem scheduled_small {inp : VolumeInput K} (h : inp.classes.length < 2 ^ 31) :
    scheduled inp = activeIndices inp := by
  unfold scheduled
  apply List.take_of_length_le
  have : (activeIndices inp).length ≤ inp.classes.length := by
    unfold activeIndices
    exact (List.length_filter_le _ _).trans (by simp)
  unfold tripCount
  have : (activeIndices inp).length % 2 ^ 32 = (activeIndices inp).length := Nat.mod_eq_of_lt (by omega)
  simp only [this]
  split <;> omega

theorem entry_inside {inp : VolumeInput K} {i : Nat} (h : inp.classes[i]? = some .inside) :
    entryOf inp i = some (.untrimmed, i + 1,
      ⟨inp.bounds i, if inp.usesGgq then [] else inp.gaussPts (inp.bounds i)⟩) := by
  simp [entryOf, callOf, h, buildUntrimmed]

theorem entry_trimmed {inp : VolumeInput K} {i : Nat} (h : inp.classes[i]? = some .trimmed) :
    entryOf inp i = (buildTrimmed inp i).map fun e => (.trimmed, i + 1, e) := by
  simp [entryOf, callOf, h]

/-- The untrimmed ids in the store are those of the inside cells. -/
theorem full_eq {inp : VolumeInput K} {order : List Nat} (hp : order.Perm (activeIndices inp))
    {s1 : State (Elem K)} (h : Inv s1 (order.filterMap (entryOf inp))) :
    (fun id => (s1.getElement .untrimmed id).present) = insideId inp.classes := by
  funext id
  rw [Bool.eq_iff_iff, present_untrimmed h, insideId, decide_eq_true_eq]
  constructor
  · rintro ⟨e, he⟩
    obtain ⟨i, hi, hie⟩ := List.mem_filterMap.mp he
    have hid : id = i + 1 := entryOf_id hie
    rcases mem_active.mp (hp.mem_iff.mp hi) with hc | hc
    · rw [entry_trimmed hc] at hie
      cases hb : buildTrimmed inp i <;> simp [hb] at hie
    · subst hid; exact ⟨by omega, by simpa using hc⟩
  · rintro ⟨h0, hc⟩
    refine ⟨⟨inp.bounds (id - 1), if inp.usesGgq then [] else inp.gaussPts (inp.bounds (id - 1))⟩,
      List.mem_filterMap.mpr ⟨id - 1, hp.mem_iff.mpr (mem_active.mpr (Or.inr hc)), ?_⟩⟩
    rw [entry_inside hc, Nat.sub_add_cancel h0]

theorem post_entry {inp : VolumeInput K} {s1 : State (Elem K)}
    (hfull : (fun id => (s1.getElement .untrimmed id).present) = insideId inp.classes) {i : Nat}
    (hi : i ∈ activeIndices inp) : (entryOf inp i).map (post inp s1) = wantedEntry inp i := by
  rcases mem_active.mp hi with hc | hc
  · rw [entry_trimmed hc]
    unfold wantedEntry wantedElement buildTrimmed
    rw [hc]
    cases ht : inp.trimmedPts i with
    | none => simp
    | some ps =>
      cases ps with
      | nil => simp
      | cons p ps =>
        simp only [List.isEmpty_cons, Bool.false_eq_true, if_false, Option.map_some]
        congr 1
        unfold post withGgq
        split <;> rfl
  · rw [entry_inside hc]
    unfold wantedEntry wantedElement
    rw [hc]
    simp only [Option.map_some, post, hfull]
    by_cases hg : inp.usesGgq = true
    · simp [hg, withGgq]
    · simp [hg]

theorem wanted_none {inp : VolumeInput K} {i : Nat} (hi : i ∉ activeIndices inp) : wantedElement inp i = none := by
  rw [mem_active] at hi
  push Not at hi
  unfold wantedElement
  split <;> simp_all

theorem filterMap_filter_of_none {ι β : Type _} (f : ι → Option β) (p : ι → Bool) (l : List ι)
    (h : ∀ i ∈ l, p i = false → f i = none) : (l.filter p).filterMap f = l.filterMap f := by
  induction l with
  | nil => rfl
  | cons i l ih =>
    have ih' := ih (fun j hj => h j (List.mem_cons_of_mem _ hj))
    cases hp : p i with
    | true => rw [List.filter_cons_of_pos hp, List.filterMap_cons, List.filterMap_cons, ih']
    | false =>
      rw [List.filter_cons_of_neg (by simp [hp]), List.filterMap_cons, h i (List.mem_cons_self ..) hp, ih']

theorem final_log {inp : VolumeInput K} {order : List Nat} (hp : order.Perm (activeIndices inp))
    {s1 : State (Elem K)} (h : Inv s1 (order.filterMap (entryOf inp))) :
    ((order.filterMap (entryOf inp)).map (post inp s1)).Perm
      ((List.range inp.classes.length).filterMap (wantedEntry inp)) := by
  have hf := full_eq hp h
  rw [List.map_filterMap]
  have e1 : order.filterMap (fun i => (entryOf inp i).map (post inp s1)) = order.filterMap (wantedEntry inp) :=
    List.filterMap_congr (fun i hi => post_entry hf (hp.mem_iff.mp hi))
  have e2 : (activeIndices inp).filterMap (wantedEntry inp) =
      (List.range inp.classes.length).filterMap (wantedEntry inp) := by
    unfold activeIndices
    apply filterMap_filter_of_none
    intro i hi hpi
    have : i ∉ activeIndices inp := by
      unfold activeIndices
      rw [List.mem_filter]
      rintro ⟨_, h2⟩
      rw [h2] at hpi; cases hpi
    simp [wantedEntry, wanted_none this]
  rw [e1, ← e2]
  exact hp.filterMap _

theorem length_filter_filterMap {ι β : Type _} (f : ι → Option β) (p : β → Bool) (l : List ι) :
    ((l.filterMap f).filter p).length = (l.filter fun i => (f i).any p).length := by
  induction l with
  | nil => rfl
  | cons i l ih =>
    rw [List.filterMap_cons, List.filter_cons]
    cases h : f i with
    | none => simpa using ih
    | some b =>
      simp only [Option.any_some, List.filter_cons]
      by_cases hp : p b = true <;> simp [hp, ih]

theorem count_eq_range {β : Type _} [BEq β] [LawfulBEq β] (l : List β) (b : β) :
    l.count b = ((List.range l.length).filter fun i => l[i]? == some b).length := by
  have h : (List.range l.length).map (fun i => l[i]?) = l.map some := by
    apply List.ext_getElem
    · simp
    · intro n h1 h2; simp at h1 h2 ⊢
  rw [← List.countP_eq_length_filter]
  have : List.countP (fun i => l[i]? == some b) (List.range l.length) =
      List.countP (fun o => o == some b) ((List.range l.length).map (fun i => l[i]?)) := by
    rw [List.countP_map]; rfl
  rw [this, h, List.countP_map, List.count_eq_countP]
  apply List.countP_congr
  intro x _
  simp

/-! ### Conditions -/

section Cond
variable {M : Type _} (s : State (Elem K)) (clip : Nat → M) (numTri : M → Nat) (area : M → K)

/-- The element found by a lookup. -/
def found (l : Look (Elem K)) : Option (Kind × Nat × Elem K) :=
  match l with
  | .elem k id e => some (k, id, e)
  | _ => none

def segmentOf (i : Nat) : Option (Segment M K) :=
  if numTri (clip i) > 0 then some ⟨i, clip i, found (s.getElement .all (i + 1))⟩ else none

theorem condStep_eq (acc : List (Segment M K) × K) (i : Nat) :
    condStep s clip numTri area acc i = (acc.1 ++ (segmentOf s clip numTri i).toList,
      acc.2 + if numTri (clip i) > 0 ∧ (s.getElement .all (i + 1)).present then area (clip i) else 0) := by
  unfold condStep segmentOf
  by_cases h : numTri (clip i) > 0
  · simp only [h, if_true, true_and]
    cases s.getElement .all (i + 1) <;> simp [found, Look.present]
  · simp [h]

theorem condFold_eq (order : List Nat) (acc : List (Segment M K) × K) :
    order.foldl (condStep s clip numTri area) acc = (acc.1 ++ order.filterMap (segmentOf s clip numTri),
      acc.2 + (order.map fun i =>
        if numTri (clip i) > 0 ∧ (s.getElement .all (i + 1)).present then area (clip i) else 0).sum) := by
  induction order generalizing acc with
  | nil => simp
  | cons i l ih =>
    rw [List.foldl_cons, ih, condStep_eq, List.filterMap_cons, List.map_cons, List.sum_cons]
    cases segmentOf s clip numTri i <;> simp [add_assoc]

end Cond

end QuESo.Embedded
