import Verif.Proofs.PyQuESo

/-!
# C99, C100: the Python class PyQuESo
-/
namespace QuESo.Py

/-! ## C99: the output directory -/

/-- If the output directory has a plain name and is no file, then it exists afterwards and is empty; nothing else in the file system is changed. -/
theorem C99_directory (fs : FS) (hs : Sound fs) (cwd : Path) (name : Name) (hn : Plain name) (hf : cwd ++ [name] ∉ fs.files) :
    (prepare fs cwd true name).2 = true ∧ EmptyDir (prepare fs cwd true name).1 (cwd ++ [name]) ∧
    ∀ q, ¬ cwd ++ [name] <+: q → (q ∈ (prepare fs cwd true name).1.dirs ↔ q ∈ fs.dirs) ∧ (q ∈ (prepare fs cwd true name).1.files ↔ q ∈ fs.files) := by
  obtain ⟨n1, n2, n3, n4⟩ := hn
  have hsp : split (folderPath name) = [dot, name, []] := by rw [split_folder, split_plain n2]
  have hfil : ([dot, name, []] : List Name).filter (· ≠ []) = [dot, name] := by
    rw [List.filter_cons_of_pos (by decide), List.filter_cons_of_pos (by simpa using n1)]; rfl
  have hwalk : ∀ fs : FS, fs.walk cwd [dot, name, []] = if fs.isDir (cwd ++ [name]) then some (cwd ++ [name]) else none := by
    intro fs
    rw [FS.walk, if_pos (.inr rfl), FS.walk, if_neg (by rintro (h | h); exact n1 h; exact n3 h), if_neg (show ¬ name = dotdot from n4)]
    split
    · rw [FS.walk, if_pos (.inl rfl)]; rfl
    · rfl
  have hwalk2 : ∀ fs : FS, fs.walk cwd [dot] = some cwd := fun fs => by rw [FS.walk, if_pos (.inr rfl)]; rfl
  have hmk : ∀ fs : FS, fs.isDir (cwd ++ [name]) = false → cwd ++ [name] ∉ fs.files →
      mkdir fs cwd [dot, name, []] = (⟨fs.dirs ++ [cwd ++ [name]], fs.files⟩, true) := by
    intro fs h1 h2
    unfold mkdir
    rw [hfil]
    show (match some name, fs.walk cwd [dot] with
      | some c, some q => if c = dot ∨ c = dotdot ∨ fs.isDir (q ++ [c]) ∨ fs.files.contains (q ++ [c]) then (fs, false)
        else ((⟨fs.dirs ++ [q ++ [c]], fs.files⟩ : FS), true)
      | _, _ => (fs, false)) = _
    rw [hwalk2]
    dsimp only
    rw [if_neg]
    rintro (h | h | h | h)
    · exact n3 h
    · exact n4 h
    · rw [h1] at h; cases h
    · exact h2 (List.contains_iff_mem.1 h)
  have hnotpre : ∀ q, ¬ cwd ++ [name] <+: q → q ≠ cwd ++ [name] := fun q h e => h (e ▸ List.prefix_refl q)
  have fin : ∀ fs1 : FS, Sound fs1 → fs1.isDir (cwd ++ [name]) = false → cwd ++ [name] ∉ fs1.files →
      (∀ q, ¬ cwd ++ [name] <+: q → (q ∈ fs1.dirs ↔ q ∈ fs.dirs) ∧ (q ∈ fs1.files ↔ q ∈ fs.files)) →
      prepare fs cwd true name = mkdir fs1 cwd [dot, name, []] →
      (prepare fs cwd true name).2 = true ∧ EmptyDir (prepare fs cwd true name).1 (cwd ++ [name]) ∧
      ∀ q, ¬ cwd ++ [name] <+: q → (q ∈ (prepare fs cwd true name).1.dirs ↔ q ∈ fs.dirs) ∧ (q ∈ (prepare fs cwd true name).1.files ↔ q ∈ fs.files) := by
    intro fs1 s1 d1 f1 hk e
    rw [e]
    have em := hmk fs1 d1 f1
    have hok : (mkdir fs1 cwd [dot, name, []]).2 = true := by rw [em]
    obtain ⟨p, p1, p2, _, p4⟩ := mkdir_ok s1 hok
    have hp : p = cwd ++ [name] := by
      rw [em] at p4
      have := congrArg FS.dirs p4
      simpa using this.symm
    subst hp
    refine ⟨hok, p2, fun q hq => ?_⟩
    rw [em]
    dsimp only
    rw [List.mem_append, List.mem_singleton, (hk q hq).1, (hk q hq).2]
    simp [hnotpre q hq]
  by_cases hd : fs.isDir (cwd ++ [name]) = true
  · -- the directory exists
    have hrm : rmtree fs (cwd ++ [name]) [dot, name, []] =
        (⟨(cut fs (cwd ++ [name])).dirs.filter (· ≠ cwd ++ [name]), (cut fs (cwd ++ [name])).files⟩, true) := by
      unfold rmtree
      rw [hfil]
      show (if name = dot ∨ name = dotdot then _ else _) = _
      rw [if_neg (by rintro (h | h); exact n3 h; exact n4 h)]
      rfl
    have hprep : prepare fs cwd true name = mkdir (rmtree fs (cwd ++ [name]) [dot, name, []]).1 cwd [dot, name, []] := by
      unfold prepare
      rw [if_pos rfl, hsp]
      dsimp only
      rw [hwalk, if_pos hd]
      dsimp only
      rw [hrm]
    refine fin _ (rmtree_sound hs (by rw [hrm]) hf) ?_ ?_ (fun q hq => rmtree_keeps hq) hprep
    · rw [hrm]
      unfold FS.isDir
      simp
    · exact fun h => hf (rmtree_sub.2 h)
  · have hd' : fs.isDir (cwd ++ [name]) = false := Bool.eq_false_iff.2 hd
    have hprep : prepare fs cwd true name = mkdir fs cwd [dot, name, []] := by
      unfold prepare
      rw [if_pos rfl, hsp]
      dsimp only
      rw [hwalk, if_neg hd]
    exact fin fs hs hd' hf (fun q _ => ⟨Iff.rfl, Iff.rfl⟩) hprep

/-- For every name: only what is at the place that the name denotes, or below it, is removed; if the name denotes no directory nothing is removed.  Without output nothing
is changed at all. -/
theorem C99_scope (fs : FS) (cwd : Path) (name : List Char) :
    prepare fs cwd false name = (fs, true) ∧
    ∀ q, (∀ p, fs.walk cwd (split (folderPath name)) = some p → ¬ p <+: q) →
      (q ∈ fs.dirs → q ∈ (prepare fs cwd true name).1.dirs) ∧ (q ∈ fs.files → q ∈ (prepare fs cwd true name).1.files) := by
  refine ⟨rfl, fun q hq => ?_⟩
  have hmk : ∀ (fs : FS) parts, (q ∈ fs.dirs → q ∈ (mkdir fs cwd parts).1.dirs) ∧ (q ∈ fs.files → q ∈ (mkdir fs cwd parts).1.files) := by
    intro fs parts
    rcases mkdir_cases fs cwd parts with e | ⟨c, r, _, _, _, _, _, _, e⟩
    · rw [e]; exact ⟨id, id⟩
    · rw [e]; exact ⟨fun h => List.mem_append_left _ h, id⟩
  unfold prepare
  rw [if_pos rfl]
  dsimp only
  cases hw : fs.walk cwd (split (folderPath name)) with
  | none => exact hmk fs _
  | some p =>
    dsimp only
    have hk := rmtree_keeps (fs := fs) (parts := split (folderPath name)) (hq p hw)
    rcases rmtree_cases fs p (split (folderPath name)) with e | e
    · rw [e] at hk ⊢
      exact ⟨hk.1.2, hk.2.2⟩
    · rw [e] at hk ⊢
      dsimp only
      exact ⟨fun h => (hmk _ _).1 (hk.1.2 h), fun h => (hmk _ _).2 (hk.2.2 h)⟩

/-- FALSE of the code: 'preparing the output directory deletes nothing but old output'.  With an empty name, or the name `.`, everything in the working directory is deleted;
with the name `..` everything in the directory above, including the working directory.  Then an exception is raised. -/
theorem C99_directory_false_of_code (fs : FS) (cwd : Path) :
    (∀ name : Name, name = [] ∨ name = ['.'] → (prepare fs cwd true name).2 = false ∧
      ∀ c r, cwd ++ c :: r ∉ (prepare fs cwd true name).1.files ∧ cwd ++ c :: r ∉ (prepare fs cwd true name).1.dirs) ∧
    ((prepare fs cwd true ['.', '.']).2 = false ∧
      ∀ c r, cwd.dropLast ++ c :: r ∉ (prepare fs cwd true ['.', '.']).1.files ∧ cwd.dropLast ++ c :: r ∉ (prepare fs cwd true ['.', '.']).1.dirs) := by
  have key : ∀ (name : Name) (p : Path) (d : Name), d = dot ∨ d = dotdot → fs.walk cwd (split (folderPath name)) = some p →
      ((split (folderPath name)).filter (· ≠ [])).getLast? = some d →
      (prepare fs cwd true name).2 = false ∧
      ∀ c r, p ++ c :: r ∉ (prepare fs cwd true name).1.files ∧ p ++ c :: r ∉ (prepare fs cwd true name).1.dirs := by
    intro name p d hd hw hl
    have hr : rmtree fs p (split (folderPath name)) = (cut fs p, false) := by
      unfold rmtree
      rw [hl]
      dsimp only
      rw [if_pos hd]
      rfl
    have e : prepare fs cwd true name = (cut fs p, false) := by
      unfold prepare
      rw [if_pos rfl]
      dsimp only
      rw [hw]
      dsimp only
      rw [hr]
    rw [e]
    refine ⟨rfl, fun c r => ?_⟩
    have hb : below p (p ++ c :: r) = true := below_iff.2 ⟨c, r, rfl⟩
    simp [cut, hb]
  refine ⟨?_, ?_⟩
  · rintro name (rfl | rfl)
    · exact key [] cwd dot (.inl rfl) (by rfl) (by decide)
    · exact key ['.'] cwd dot (.inl rfl) (by rfl) (by decide)
  · exact key ['.', '.'] cwd.dropLast dotdot (.inr rfl) (by rfl) (by decide)

/-- What holds of the place of the output: if the directory was prepared and its name does not begin with a slash, the files of the model are written to the prepared directory,
and nothing is in it before.
Missing for the full property: names that begin with a slash. -/
theorem C99_output_partial (fs : FS) (hs : Sound fs) (hdf : ∀ p ∈ fs.dirs, p ∉ fs.files) (hroot : [] ∉ fs.files) (cwd : Path) (name : List Char) (h0 : name.head? ≠ some '/')
    (hok : (prepare fs cwd true name).2 = true) (hwd : cwd = [] ∨ cwd ∈ fs.dirs) :
    ∃ p, outputDir (prepare fs cwd true name).1 cwd name = some p ∧ EmptyDir (prepare fs cwd true name).1 p := by
  have hwalkdir : ∀ (a : List Name) (p q : Path), (fs.isDir p = true) → (∀ r, r.dropLast ≠ r → fs.isDir r = true → fs.isDir r.dropLast = true) →
      fs.walk p a = some q → fs.isDir q = true := by
    intro a
    induction a with
    | nil => intro p q hp _ e; cases e; exact hp
    | cons c a ih =>
      intro p q hp hup e
      rw [FS.walk] at e
      split at e
      · exact ih _ _ hp hup e
      · split at e
        · by_cases hd : p.dropLast = p
          · rw [hd] at e; exact ih _ _ hp hup e
          · exact ih _ _ (hup p hd hp) hup e
        · split at e
          · exact ih _ _ (by assumption) hup e
          · cases e
  have hup : ∀ r : Path, r.dropLast ≠ r → fs.isDir r = true → fs.isDir r.dropLast = true := by
    intro r hr hd
    have hne : r ≠ [] := fun e => hr (by rw [e]; rfl)
    rcases isDir_iff.1 hd with h | h
    · exact absurd h hne
    · have e := List.dropLast_append_getLast hne
      exact hs r.dropLast (r.getLast hne) (.inl (by rw [e]; exact h))
  -- the last step is making the directory
  have hmk : ∃ fs1, Sound fs1 ∧ prepare fs cwd true name = mkdir fs1 cwd (split (folderPath name)) := by
    unfold prepare at hok ⊢
    rw [if_pos rfl] at hok ⊢
    dsimp only at hok ⊢
    cases hw : fs.walk cwd (split (folderPath name)) with
    | none => exact ⟨fs, hs, rfl⟩
    | some p =>
      rw [hw] at hok
      dsimp only at hok ⊢
      have hpd : fs.isDir p = true := hwalkdir _ _ _ (isDir_iff.2 hwd) hup hw
      have hpf : p ∉ fs.files := by
        rcases isDir_iff.1 hpd with h | h
        · rw [h]; exact hroot
        · exact hdf p h
      rcases rmtree_cases fs p (split (folderPath name)) with e | e
      · rw [e] at hok; cases hok
      · have hsd := rmtree_sound hs (p := p) (parts := split (folderPath name)) (by rw [e]) hpf
        refine ⟨_, hsd, ?_⟩
        rw [e]
  obtain ⟨fs1, hs1, e⟩ := hmk
  rw [e] at hok ⊢
  obtain ⟨p, p1, p2, _, _⟩ := mkdir_ok hs1 hok
  refine ⟨p, ?_, p2⟩
  rw [split_folder, FS.walk, if_pos (.inr rfl)] at p1
  unfold outputDir
  split
  · simp at h0
  · exact p1

/-- FALSE of the code: 'the output is written to the directory that was prepared'.  With a name that begins with a slash a directory in the working directory is prepared and the output
goes to the directory at the root, where old files remain. -/
theorem C99_output_false_of_code :
    ∃ (fs : FS) (cwd : Path) (name : List Char), Sound fs ∧ cwd ∈ fs.dirs ∧ (prepare fs cwd true name).2 = true ∧
      EmptyDir (prepare fs cwd true name).1 (cwd ++ [['a']]) ∧
      outputDir (prepare fs cwd true name).1 cwd name = some [['a']] ∧ [['a'], ['o']] ∈ (prepare fs cwd true name).1.files := by
  refine ⟨⟨[[['h']], [['a']]], [[['a'], ['o']]]⟩, [['h']], ['/', 'a'], ?_, by decide, by decide +kernel, ⟨by decide +kernel, ?_⟩, by decide +kernel, by decide +kernel⟩
  · intro q c h
    have hl : q = [] ∨ q = [['a']] := by
      simp only [List.mem_cons, List.not_mem_nil, or_false] at h
      rcases h with (h | h) | h
      · left; exact (List.append_eq_singleton_iff.1 h).elim (fun h => h.1) (fun h => by simp at h)
      · left; exact (List.append_eq_singleton_iff.1 h).elim (fun h => h.1) (fun h => by simp at h)
      · right
        have := congrArg List.dropLast h
        simpa using this
    rcases hl with rfl | rfl <;> decide
  · intro c r
    have e : (prepare ⟨[[['h']], [['a']]], [[['a'], ['o']]]⟩ [['h']] true ['/', 'a']).1 = ⟨[[['h']], [['a']], [['h'], ['a']]], [[['a'], ['o']]]⟩ := by decide +kernel
    rw [e]
    constructor
    · intro hm
      simp only [List.mem_cons, List.not_mem_nil, or_false] at hm
      rcases hm with hm | hm | hm <;> simp at hm
    · intro hm
      simp only [List.mem_cons, List.not_mem_nil, or_false] at hm
      simp at hm

/-- C99 is not empty: old output is deleted, other files stay. -/
example : prepare ⟨[[['h']], [['h'], ['o']], [['h'], ['o'], ['s']]], [[['h'], ['x']], [['h'], ['o'], ['y']], [['h'], ['o'], ['s'], ['z']]]⟩ [['h']] true ['o'] =
    (⟨[[['h']], [['h'], ['o']]], [[['h'], ['x']]]⟩, true) ∧ Plain ['o'] := by
  refine ⟨by decide +kernel, ?_⟩
  unfold Plain; decide

/-! ## C100: settings and runs -/

section
variable {S R : Type _} (check : S → Bool) (create : S → Option R)

/-- What holds of an object of PyQuESo with settings that pass the check: before the first run the settings are available and the model is not; after one or more runs the settings are
still the same, and the model is that of the first run.  The first run raises an error exactly if the model cannot be made.  Further runs raise an error and change nothing.
Missing for the full property: settings that do not pass the check. -/
theorem C100_run_partial (s : S) (hs : check s = true) :
    getSettings (init s : State S R) = .ok s ∧ getModel (init s : State S R) = .error .attributeError ∧
    (run check create (init s)).2 = (if (create s).isSome then none else some .fromModel) ∧
    ∀ n, getSettings (runs check create (n + 1) (init s)) = .ok s ∧ getModel (runs check create (n + 1) (init s)) = .ok (create s) ∧
      run check create (runs check create (n + 1) (init s)) = (runs check create 1 (init s), some .typeError) := by
  refine ⟨rfl, rfl, ?_, ?_⟩
  · unfold run init
    dsimp only
    rw [if_pos hs]
    cases create s <;> rfl
  have h1 : (run check create (init s)).1 = (⟨none, some (s, create s)⟩ : State S R) := by
    unfold run init
    dsimp only
    rw [if_pos hs]
    cases create s <;> rfl
  have h2 : ∀ n, runs check create n (⟨none, some (s, create s)⟩ : State S R) = ⟨none, some (s, create s)⟩ := by
    intro n
    induction n with
    | zero => rfl
    | succ n ih => rw [runs]; exact ih
  intro n
  have h3 : runs check create (n + 1) (init s) = (⟨none, some (s, create s)⟩ : State S R) := by rw [runs, h1, h2]
  have h4 : runs check create 1 (init s) = (⟨none, some (s, create s)⟩ : State S R) := by rw [runs, h1]; rfl
  rw [h3, h4]
  exact ⟨rfl, rfl, rfl⟩

/-- FALSE of the code: 'the settings are available at any time, and a run can be repeated after the settings were corrected'.  If the settings do not pass the check, the run raises the error of the check;
after that the settings are lost: they cannot be read or corrected, and all further runs fail because of that. -/
theorem C100_run_false_of_code (s : S) (hs : check s = false) :
    (run check create (init s)).2 = some .fromCheck ∧
    ∀ n, getSettings (runs check create (n + 1) (init s)) = .error .released ∧ getModel (runs check create (n + 1) (init s)) = .error .attributeError ∧
      (run check create (runs check create (n + 1) (init s))).2 = some .released := by
  have h1 : run check create (init s) = ((⟨some none, none⟩ : State S R), some .fromCheck) := by
    unfold run init
    dsimp only
    rw [if_neg (by rw [hs]; decide)]
  refine ⟨by rw [h1], ?_⟩
  have h2 : ∀ n, runs check create n (⟨some none, none⟩ : State S R) = ⟨some none, none⟩ := by
    intro n
    induction n with
    | zero => rfl
    | succ n ih => rw [runs]; exact ih
  intro n
  have h3 : runs check create (n + 1) (init s) = (⟨some none, none⟩ : State S R) := by rw [runs, h1]; exact h2 n
  rw [h3]
  exact ⟨rfl, rfl, rfl⟩
end

/-- C100 is not empty: settings are numbers, and positive ones pass the check. -/
example : getModel (runs (fun n : Nat => decide (0 < n)) (fun n => some (2 * n)) 2 (init 3)) = .ok (some 6) ∧
    getSettings (runs (fun n : Nat => decide (0 < n)) (fun n => some (2 * n)) 2 (init 0)) = .error .released := ⟨rfl, rfl⟩

end QuESo.Py
