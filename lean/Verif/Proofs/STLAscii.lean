import Verif.Proofs.STL

/-! # Proofs about STL files in text format -/
namespace QuESo.IO
open QuESo.Spec
variable {K : Type _}

theorem linesFrom_line (l rest cur : List UInt8) (h : (10 : UInt8) ∉ l) :
    linesFrom cur (l ++ 10 :: rest) = (cur.reverse ++ l, true) :: linesFrom [] rest := by
  induction l generalizing cur with
  | nil => simp [linesFrom]
  | cons b l ih =>
    have hb : b ≠ 10 := fun e => h (by simp [e])
    rw [List.cons_append, linesFrom, if_neg hb, ih _ (fun hh => h (by simp [hh]))]
    simp

theorem fileLines_flatten (ls : List (List UInt8)) (h : ∀ l ∈ ls, (10 : UInt8) ∉ l) :
    fileLines (ls.map (fun l => l ++ [10])).flatten = ls.map (fun l => (l, true)) := by
  unfold fileLines
  induction ls with
  | nil => rfl
  | cons l ls ih =>
    have := ih (fun l' h' => h l' (by simp [h']))
    simp only [List.map_cons, List.flatten_cons, List.append_assoc, List.singleton_append]
    rw [linesFrom_line _ _ _ (h l (by simp)), this]
    simp

theorem wordsFrom_word (w rest cur : List UInt8) (h : ∀ b ∈ w, b ≠ 32 ∧ b ≠ 9) (hne : cur ≠ [] ∨ w ≠ []) :
    wordsFrom cur (w ++ 32 :: rest) = (cur.reverse ++ w) :: wordsFrom [] rest := by
  induction w generalizing cur with
  | nil =>
    have hc : cur ≠ [] := by
      rcases hne with h | h
      · exact h
      · exact absurd rfl h
    rw [List.nil_append, wordsFrom, if_pos (Or.inl rfl), if_neg hc, List.append_nil]
  | cons b w ih =>
    obtain ⟨h1, h2⟩ := h b (by simp)
    rw [List.cons_append, wordsFrom, if_neg (by rintro (e | e); exacts [h1 e, h2 e]), ih _ (fun c hc => h c (by simp [hc])) (Or.inl (by simp))]
    simp

theorem wordsFrom_last (w cur : List UInt8) (h : ∀ b ∈ w, b ≠ 32 ∧ b ≠ 9) (hne : cur ≠ [] ∨ w ≠ []) :
    wordsFrom cur w = [cur.reverse ++ w] := by
  induction w generalizing cur with
  | nil =>
    have hc : cur ≠ [] := by
      rcases hne with h | h
      · exact h
      · exact absurd rfl h
    rw [wordsFrom, if_neg hc, List.append_nil]
  | cons b w ih =>
    obtain ⟨h1, h2⟩ := h b (by simp)
    rw [wordsFrom, if_neg (by rintro (e | e); exacts [h1 e, h2 e]), ih _ (fun c hc => h c (by simp [hc])) (Or.inl (by simp))]
    simp

theorem number_avoid {txt : List UInt8} (h : NumberText txt) {b : UInt8} (hb : b ∈ txt) :
    b ≠ 32 ∧ b ≠ 9 ∧ b ≠ 10 ∧ b ≠ 115 := by
  have := h.2 b hb
  refine ⟨?_, ?_, ?_, ?_⟩ <;> rintro rfl <;> revert this <;> decide

theorem parseVertex_line {fmt : K → List UInt8} (hf : ∀ x, NumberText (fmt x)) {parse : List UInt8 → Option K} {g : K → K}
    (hp : ∀ x, parse (fmt x) = some (g x)) (p : V3 K) :
    parseVertex parse (ascii "vertex " ++ fmtPoint fmt p) = some ⟨g p.x, g p.y, g p.z⟩ := by
  have hv : ascii "vertex " = ascii "vertex" ++ [32] := by decide +kernel
  have hw : ∀ b ∈ ascii "vertex", b ≠ 32 ∧ b ≠ 9 := by decide +kernel
  have hn : ∀ x, ∀ b ∈ fmt x, b ≠ 32 ∧ b ≠ 9 := fun x b hb => ⟨(number_avoid (hf x) hb).1, (number_avoid (hf x) hb).2.1⟩
  have : wordsFrom [] (ascii "vertex " ++ fmtPoint fmt p) = [ascii "vertex", fmt p.x, fmt p.y, fmt p.z] := by
    rw [hv, List.append_assoc, List.singleton_append, wordsFrom_word _ _ _ hw (Or.inr (by decide +kernel))]
    unfold fmtPoint
    simp only [List.append_assoc, List.cons_append]
    rw [wordsFrom_word _ _ _ (hn _) (Or.inr (hf _).1), wordsFrom_word _ _ _ (hn _) (Or.inr (hf _).1),
      wordsFrom_last _ _ (hn _) (Or.inr (hf _).1)]
    simp
  unfold parseVertex
  rw [this]
  simp [hp]

theorem contains_prefix (pat rest : List UInt8) : contains pat (pat ++ rest) = true := by
  have : pat.isPrefixOf (pat ++ rest) = true := by simp
  cases h : pat ++ rest with
  | nil =>
    rw [h] at this
    exact this
  | cons c l =>
    rw [h] at this
    rw [contains, this]
    rfl

theorem contains_subset {pat l : List UInt8} (h : contains pat l = true) : ∀ b ∈ pat, b ∈ l := by
  induction l with
  | nil =>
    rw [contains] at h
    have := List.isPrefixOf_iff_prefix.1 h
    intro b hb
    exact this.subset hb
  | cons c l ih =>
    rw [contains, Bool.or_eq_true] at h
    intro b hb
    rcases h with h | h
    · exact (List.isPrefixOf_iff_prefix.1 h).subset hb
    · exact List.mem_cons_of_mem _ (ih h b hb)

/-- Corners as read back. -/
def gcorners (g : K → K) (t : Tri K) : V3 (V3 K) :=
  ⟨⟨g t.p1.x, g t.p1.y, g t.p1.z⟩, ⟨g t.p2.x, g t.p2.y, g t.p2.z⟩, ⟨g t.p3.x, g t.p3.y, g t.p3.z⟩⟩

theorem mem_fmtPoint {fmt : K → List UInt8} (hf : ∀ x, NumberText (fmt x)) {p : V3 K} {b : UInt8} (hb : b ∈ fmtPoint fmt p) :
    b ≠ 10 ∧ b ≠ 115 := by
  unfold fmtPoint at hb
  simp only [List.mem_append, List.mem_cons] at hb
  have hn := fun x => number_avoid (hf x) (b := b)
  rcases hb with (hb | hb | hb) | hb | hb
  · exact ⟨(hn _ hb).2.2.1, (hn _ hb).2.2.2⟩
  · subst hb; decide
  · exact ⟨(hn _ hb).2.2.1, (hn _ hb).2.2.2⟩
  · subst hb; decide
  · exact ⟨(hn _ hb).2.2.1, (hn _ hb).2.2.2⟩

theorem facet_line {fmt : K → List UInt8} (hf : ∀ x, NumberText (fmt x)) (p : V3 K) :
    contains (ascii "facet") (ascii "facet normal " ++ fmtPoint fmt p) = true ∧
    contains (ascii "facet normal") (ascii "facet normal " ++ fmtPoint fmt p) = true ∧
    contains (ascii "endsolid") (ascii "facet normal " ++ fmtPoint fmt p) = false := by
  refine ⟨?_, ?_, ?_⟩
  · have : ascii "facet normal " = ascii "facet" ++ ascii " normal " := by decide +kernel
    rw [this, List.append_assoc]
    exact contains_prefix _ _
  · have : ascii "facet normal " = ascii "facet normal" ++ [32] := by decide +kernel
    rw [this, List.append_assoc]
    exact contains_prefix _ _
  · by_contra h
    rw [Bool.not_eq_false] at h
    have := contains_subset h 115 (by decide +kernel)
    rcases List.mem_append.1 this with hh | hh
    · exact absurd hh (by decide +kernel)
    · exact (mem_fmtPoint hf hh).2 rfl

theorem triangle_lines {fmt : K → List UInt8} (hf : ∀ x, NumberText (fmt x)) (t : Tri K) :
    ∀ l ∈ asciiTriangle fmt t, (10 : UInt8) ∉ l := by
  have hc : ∀ s : List UInt8, (10 : UInt8) ∉ s → ∀ p : V3 K, (10 : UInt8) ∉ s ++ fmtPoint fmt p := by
    intro s hs p hm
    rcases List.mem_append.1 hm with hm | hm
    · exact hs hm
    · exact (mem_fmtPoint hf hm).1 rfl
  intro l hl
  simp only [asciiTriangle, List.mem_cons, List.not_mem_nil, or_false] at hl
  rcases hl with rfl | rfl | rfl | rfl | rfl | rfl | rfl
  · exact hc _ (by decide +kernel) _
  · decide +kernel
  · exact hc _ (by decide +kernel) _
  · exact hc _ (by decide +kernel) _
  · exact hc _ (by decide +kernel) _
  · decide +kernel
  · decide +kernel

/-- One facet. -/
theorem asciiLoop_triangle {fmt : K → List UInt8} (hf : ∀ x, NumberText (fmt x)) {parse : List UInt8 → Option K} {g : K → K}
    (hp : ∀ x, parse (fmt x) = some (g x)) (lookup : List (V3 K) → V3 K → Option Nat)
    (normalOf : V3 K → V3 K → V3 K → V3 K) (m : Mesh K) (t : Tri K) (rest : List (List UInt8 × Bool)) :
    asciiLoop parse lookup normalOf m ((asciiTriangle fmt t).map (fun l => (l, true)) ++ rest) =
      asciiLoop parse lookup normalOf (addCorners lookup normalOf m (gcorners g t)) rest := by
  obtain ⟨f1, _, f3⟩ := facet_line hf t.normal
  have o1 : contains (ascii "outer loop") (ascii "outer loop") = true := by decide +kernel
  have o2 : contains (ascii "endloop") (ascii "endloop") = true := by decide +kernel
  have o3 : contains (ascii "endfacet") (ascii "endfacet") = true := by decide +kernel
  simp only [asciiTriangle, List.map_cons, List.map_nil, List.cons_append, List.nil_append]
  rw [asciiLoop]
  simp only [f1, f3, o1, o2, o3, asciiFacet, parseVertex_line hf hp, Bool.not_true, Bool.or_self, if_true, if_false, Bool.false_eq_true]
  rfl

theorem asciiLoop_triangles {fmt : K → List UInt8} (hf : ∀ x, NumberText (fmt x)) {parse : List UInt8 → Option K} {g : K → K}
    (hp : ∀ x, parse (fmt x) = some (g x)) (lookup : List (V3 K) → V3 K → Option Nat)
    (normalOf : V3 K → V3 K → V3 K → V3 K) (ts : List (Tri K)) (m : Mesh K) (rest : List (List UInt8 × Bool)) :
    asciiLoop parse lookup normalOf m ((ts.flatMap (asciiTriangle fmt)).map (fun l => (l, true)) ++ rest) =
      asciiLoop parse lookup normalOf ((ts.map (gcorners g)).foldl (addCorners lookup normalOf) m) rest := by
  induction ts generalizing m with
  | nil => rfl
  | cons t ts ih =>
    rw [List.flatMap_cons, List.map_append, List.append_assoc, asciiLoop_triangle hf hp, ih]
    rfl

/-- Lines of the file. -/
def asciiLines (fmt : K → List UInt8) (ts : List (Tri K)) : List (List UInt8) :=
  [ascii "solid QuESoExport"] ++ ts.flatMap (asciiTriangle fmt) ++ [ascii "endsolid QuESoExport"]

theorem asciiLines_ok {fmt : K → List UInt8} (hf : ∀ x, NumberText (fmt x)) (ts : List (Tri K)) :
    ∀ l ∈ asciiLines fmt ts, (10 : UInt8) ∉ l := by
  intro l hl
  unfold asciiLines at hl
  simp only [List.mem_append, List.mem_singleton, List.mem_flatMap] at hl
  rcases hl with (rfl | ⟨t, _, hl⟩) | rfl
  · decide +kernel
  · exact triangle_lines hf t l hl
  · decide +kernel

theorem readAscii_eq {fmt : K → List UInt8} (hf : ∀ x, NumberText (fmt x)) {parse : List UInt8 → Option K} {g : K → K}
    (hp : ∀ x, parse (fmt x) = some (g x)) (lookup : List (V3 K) → V3 K → Option Nat)
    (normalOf : V3 K → V3 K → V3 K → V3 K) (ts : List (Tri K)) :
    readAscii parse lookup normalOf ((asciiLines fmt ts).map (fun l => l ++ [10])).flatten =
      if ((ts.map (gcorners g)).foldl (addCorners lookup normalOf) Mesh.empty).check then
        .ok ((ts.map (gcorners g)).foldl (addCorners lookup normalOf) Mesh.empty) else .error := by
  unfold readAscii
  rw [fileLines_flatten _ (asciiLines_ok hf ts)]
  have s1 : contains (ascii "facet") (ascii "solid QuESoExport") = false := by decide +kernel
  have s2 : contains (ascii "facet") (ascii "endsolid QuESoExport") = false := by decide +kernel
  have s3 : contains (ascii "endsolid") (ascii "endsolid QuESoExport") = true := by decide +kernel
  unfold asciiLines
  simp only [List.map_append, List.map_cons, List.map_nil, List.cons_append, List.nil_append]
  rw [List.dropWhile_cons_of_pos (by simp [s1])]
  cases ts with
  | nil =>
    simp only [List.flatMap_nil, List.map_nil, List.nil_append]
    rw [List.dropWhile_cons_of_pos (by simp [s2]), List.dropWhile_nil, asciiLoop]
    rfl
  | cons t ts =>
    have hd : ∀ X : List (List UInt8 × Bool),
        List.dropWhile (fun l : List UInt8 × Bool => !contains (ascii "facet") l.1)
          (((t :: ts).flatMap (asciiTriangle fmt)).map (fun l => (l, true)) ++ X) =
          ((t :: ts).flatMap (asciiTriangle fmt)).map (fun l => (l, true)) ++ X := by
      intro X
      rw [List.flatMap_cons, asciiTriangle]
      simp only [List.cons_append, List.map_cons]
      rw [List.dropWhile_cons_of_neg]
      simp [(facet_line hf t.normal).1]
    rw [hd, asciiLoop_triangles hf hp, asciiLoop]
    · simp only [s3, if_true]
    · intro _ _ _ _ _ _ _ h; cases h

theorem encoding_ascii {fmt : K → List UInt8} (hf : ∀ x, NumberText (fmt x)) (ts : List (Tri K)) :
    encodingType ((asciiLines fmt ts).map (fun l => l ++ [10])).flatten = .ascii := by
  cases ts with
  | nil => 
    have : encodingType (([ascii "solid QuESoExport"] ++ [ascii "endsolid QuESoExport"]).map (fun l => l ++ [10])).flatten = .ascii := by
      decide +kernel
    exact this
  | cons t ts =>
    unfold encodingType
    rw [fileLines_flatten _ (asciiLines_ok hf _)]
    have hs : (ascii "solid").isPrefixOf (ascii "solid QuESoExport") = true := by decide +kernel
    unfold asciiLines
    simp only [List.flatMap_cons, asciiTriangle, List.map_append, List.map_cons, List.map_nil, List.nil_append, List.cons_append,
      List.head?_cons, Option.getD_some, hs, Bool.not_true, Bool.false_eq_true, if_false, List.tail_cons, List.take_succ_cons,
      List.any_cons, (facet_line hf t.normal).2.1, Bool.true_or, if_true]

end QuESo.IO
