import Verif.Spec.PyQuESo
import Mathlib.Data.List.Basic
import Mathlib.Data.List.Induction

/-! # Proofs about output directories and runs -/
namespace QuESo.Py

theorem split_append {w : Name} (h : '/' ∉ w) (r : List Char) : split (w ++ '/' :: r) = w :: split r := by
  induction w with
  | nil => rw [List.nil_append, split, if_pos rfl]
  | cons c w ih =>
    have hc : c ≠ '/' := fun e => h (by rw [e]; exact List.mem_cons_self ..)
    rw [List.cons_append, split, if_neg hc, ih (fun hm => h (List.mem_cons_of_mem _ hm))]

theorem split_folder (name : List Char) : split (folderPath name) = dot :: split (name ++ ['/']) :=
  split_append (w := dot) (by decide) (name ++ ['/'])

theorem split_plain {name : Name} (h : '/' ∉ name) : split (name ++ ['/']) = [name, []] := by
  rw [split_append h]; rfl

theorem below_iff {p q : Path} : below p q = true ↔ ∃ c r, q = p ++ c :: r := by
  unfold below
  rw [Bool.and_eq_true, List.isPrefixOf_iff_prefix, decide_eq_true_eq]
  constructor
  · rintro ⟨⟨t, rfl⟩, hl⟩
    cases t with
    | nil => simp at hl
    | cons c r => exact ⟨c, r, rfl⟩
  · rintro ⟨c, r, rfl⟩
    exact ⟨⟨_, rfl⟩, by simp⟩

theorem isDir_iff {fs : FS} {p : Path} : fs.isDir p = true ↔ p = [] ∨ p ∈ fs.dirs := by
  unfold FS.isDir
  rw [Bool.or_eq_true, List.isEmpty_iff, List.contains_iff_mem]

/-- Above everything in the file system there are directories. -/
theorem sound_above {fs : FS} (h : Sound fs) (p : Path) : ∀ (r : List Name) (c : Name),
    (p ++ c :: r ∈ fs.dirs ∨ p ++ c :: r ∈ fs.files) → fs.isDir p = true := by
  intro r
  induction r using List.reverseRecOn with
  | nil => intro c hc; exact h p c hc
  | append_singleton r d ih =>
    intro c hc
    have e : p ++ c :: (r ++ [d]) = (p ++ c :: r) ++ [d] := by simp
    rw [e] at hc
    have := isDir_iff.1 (h _ d hc)
    rcases this with h0 | h0
    · simp at h0
    · exact ih c (.inl h0)

/-! ## Following names -/

theorem walk_append (fs : FS) : ∀ (a b : List Name) (p : Path), fs.walk p (a ++ b) = (fs.walk p a).bind fun q => fs.walk q b := by
  intro a
  induction a with
  | nil => intro b p; rfl
  | cons c a ih =>
    intro b p
    rw [List.cons_append, FS.walk, FS.walk]
    split
    · exact ih b p
    · split
      · exact ih b _
      · split
        · exact ih b _
        · rfl

theorem walk_filter (fs : FS) : ∀ (a : List Name) (p : Path), fs.walk p (a.filter (· ≠ [])) = fs.walk p a := by
  intro a
  induction a with
  | nil => intro p; rfl
  | cons c a ih =>
    intro p
    by_cases hc : c = []
    · subst hc
      rw [List.filter_cons_of_neg (by simp), FS.walk, if_pos (.inl rfl)]; exact ih p
    · rw [List.filter_cons_of_pos (by simpa using hc), FS.walk, FS.walk, ih, ih, ih]

theorem walk_mono {fs fs' : FS} (h : ∀ p, fs.isDir p = true → fs'.isDir p = true) : ∀ (a : List Name) (p q : Path),
    fs.walk p a = some q → fs'.walk p a = some q := by
  intro a
  induction a with
  | nil => intro p q e; exact e
  | cons c a ih =>
    intro p q e
    rw [FS.walk] at e ⊢
    by_cases h1 : c = [] ∨ c = dot
    · rw [if_pos h1] at e ⊢; exact ih _ _ e
    · rw [if_neg h1] at e ⊢
      by_cases h2 : c = dotdot
      · rw [if_pos h2] at e ⊢; exact ih _ _ e
      · rw [if_neg h2] at e ⊢
        by_cases h3 : fs.isDir (p ++ [c]) = true
        · rw [if_pos h3] at e; rw [if_pos (h _ h3)]; exact ih _ _ e
        · rw [if_neg h3] at e; cases e

/-! ## Removing and making directories -/

/-- What is left after the removal of everything below `p`. -/
def cut (fs : FS) (p : Path) : FS := ⟨fs.dirs.filter (fun q => !below p q), fs.files.filter (fun q => !below p q)⟩

theorem rmtree_cases (fs : FS) (p : Path) (parts : List Name) :
    rmtree fs p parts = (cut fs p, false) ∨ rmtree fs p parts = (⟨(cut fs p).dirs.filter (· ≠ p), (cut fs p).files⟩, true) := by
  unfold rmtree
  dsimp only
  split
  · exact .inl rfl
  · split
    · exact .inl rfl
    · exact .inr rfl

theorem rmtree_keeps {fs : FS} {p q : Path} {parts : List Name} (h : ¬ p <+: q) :
    (q ∈ (rmtree fs p parts).1.dirs ↔ q ∈ fs.dirs) ∧ (q ∈ (rmtree fs p parts).1.files ↔ q ∈ fs.files) := by
  have hb : below p q = false := by
    cases hh : below p q with
    | false => rfl
    | true => obtain ⟨c, r, rfl⟩ := below_iff.1 hh; exact absurd ⟨_, rfl⟩ h
  have hne : q ≠ p := fun e => h (e ▸ List.prefix_refl q)
  rcases rmtree_cases fs p parts with e | e <;> rw [e] <;> simp [cut, hb, hne]

theorem rmtree_removes {fs : FS} {p q : Path} {parts : List Name} (h : below p q = true) :
    q ∉ (rmtree fs p parts).1.dirs ∧ q ∉ (rmtree fs p parts).1.files := by
  rcases rmtree_cases fs p parts with e | e <;> rw [e] <;> simp [cut, h]

theorem rmtree_sub {fs : FS} {p q : Path} {parts : List Name} :
    (q ∈ (rmtree fs p parts).1.dirs → q ∈ fs.dirs) ∧ (q ∈ (rmtree fs p parts).1.files → q ∈ fs.files) := by
  rcases rmtree_cases fs p parts with e | e <;> rw [e] <;> simp [cut] <;> tauto

theorem rmtree_ok {fs : FS} {p : Path} {parts : List Name} (h : (rmtree fs p parts).2 = true) :
    (rmtree fs p parts).1 = ⟨(cut fs p).dirs.filter (· ≠ p), (cut fs p).files⟩ := by
  rcases rmtree_cases fs p parts with e | e
  · rw [e] at h; cases h
  · rw [e]

theorem rmtree_sound {fs : FS} (hs : Sound fs) {p : Path} {parts : List Name} (h : (rmtree fs p parts).2 = true) (hp : p ∉ fs.files) :
    Sound (rmtree fs p parts).1 := by
  intro q c hq
  have hsub := rmtree_sub (fs := fs) (p := p) (q := q ++ [c]) (parts := parts)
  have hq0 : fs.isDir q = true := hs q c (hq.imp hsub.1 hsub.2)
  rcases isDir_iff.1 hq0 with h0 | h0
  · exact isDir_iff.2 (.inl h0)
  · refine isDir_iff.2 (.inr ?_)
    by_cases hpq : p <+: q
    · exfalso
      have hb : below p (q ++ [c]) = true := by
        obtain ⟨t, rfl⟩ := hpq
        cases t with
        | nil => exact below_iff.2 ⟨c, [], by simp⟩
        | cons d t => exact below_iff.2 ⟨d, t ++ [c], by simp⟩
      have := rmtree_removes (fs := fs) (parts := parts) hb
      rcases hq with hq | hq
      · exact this.1 hq
      · exact this.2 hq
    · exact (rmtree_keeps hpq).1.2 h0

theorem mkdir_cases (fs : FS) (cwd : Path) (parts : List Name) :
    mkdir fs cwd parts = (fs, false) ∨ ∃ c q, (parts.filter (· ≠ [])).getLast? = some c ∧ fs.walk cwd (parts.filter (· ≠ [])).dropLast = some q ∧
      c ≠ dot ∧ c ≠ dotdot ∧ fs.isDir (q ++ [c]) = false ∧ q ++ [c] ∉ fs.files ∧
      mkdir fs cwd parts = (⟨fs.dirs ++ [q ++ [c]], fs.files⟩, true) := by
  unfold mkdir
  dsimp only
  cases h1 : (parts.filter (· ≠ [])).getLast? with
  | none => exact .inl rfl
  | some c =>
    cases h2 : fs.walk cwd (parts.filter (· ≠ [])).dropLast with
    | none => exact .inl rfl
    | some q =>
      dsimp only
      by_cases h : c = dot ∨ c = dotdot ∨ fs.isDir (q ++ [c]) = true ∨ fs.files.contains (q ++ [c]) = true
      · rw [if_pos h]; exact .inl rfl
      · rw [if_neg h]
        push Not at h
        refine .inr ⟨c, q, rfl, rfl, h.1, h.2.1, ?_, ?_, rfl⟩
        · exact Bool.eq_false_iff.2 h.2.2.1
        · intro hm; exact h.2.2.2 (List.contains_iff_mem.2 hm)

theorem getLast_filter_ne {parts : List Name} {c : Name} (h : (parts.filter (· ≠ [])).getLast? = some c) : c ≠ [] := by
  have := List.mem_of_getLast? h
  simpa using (List.mem_filter.1 this).2

/-- After a directory was made, its name leads to it, and nothing is in it. -/
theorem mkdir_ok {fs : FS} (hs : Sound fs) {cwd : Path} {parts : List Name} (h : (mkdir fs cwd parts).2 = true) :
    ∃ p, (mkdir fs cwd parts).1.walk cwd parts = some p ∧ EmptyDir (mkdir fs cwd parts).1 p ∧ p ∉ fs.files ∧
      (mkdir fs cwd parts).1 = ⟨fs.dirs ++ [p], fs.files⟩ := by
  rcases mkdir_cases fs cwd parts with e | ⟨c, q, h1, h2, h3, h4, h5, h6, e⟩
  · rw [e] at h; cases h
  · rw [e]
    dsimp only
    have hd : (⟨fs.dirs ++ [q ++ [c]], fs.files⟩ : FS).isDir (q ++ [c]) = true := isDir_iff.2 (.inr (by simp))
    refine ⟨q ++ [c], ?_, ⟨hd, ?_⟩, h6, rfl⟩
    · rw [← walk_filter]
      have hsplit : parts.filter (· ≠ []) = (parts.filter (· ≠ [])).dropLast ++ [c] := by
        have hne : parts.filter (· ≠ []) ≠ [] := fun e => by rw [e] at h1; cases h1
        have := List.dropLast_append_getLast hne
        rw [List.getLast?_eq_some_getLast hne] at h1
        cases h1
        exact this.symm
      rw [hsplit, walk_append, walk_mono (fs := fs) (fun p hp => ?_) _ _ _ h2]
      · show FS.walk _ q [c] = _
        rw [FS.walk, if_neg (by rintro (h | h); exact getLast_filter_ne h1 h; exact h3 h), if_neg h4, if_pos hd]; rfl
      · rcases isDir_iff.1 hp with hp | hp
        · exact isDir_iff.2 (.inl hp)
        · exact isDir_iff.2 (.inr (List.mem_append_left _ hp))
    · intro d r
      have hno : ¬ (q ++ [c] ++ d :: r ∈ fs.dirs ∨ q ++ [c] ++ d :: r ∈ fs.files) := by
        intro hm
        have := sound_above hs (q ++ [c]) r d hm
        rw [this] at h5; cases h5
      refine ⟨fun hm => ?_, fun hm => hno (.inr hm)⟩
      rcases List.mem_append.1 hm with hm | hm
      · exact hno (.inl hm)
      · rw [List.mem_singleton] at hm
        have := congrArg List.length hm
        simp at this

end QuESo.Py
