import Verif.Proofs.JsonText

/-!
# Written dictionaries: the printed text
-/
namespace QuESo.Json
open QuESo.Settings QuESo.Spec

variable {rnd : ℚ → ℚ}

theorem keysFit_length {ks : KeySet} {n : Nat} (h : KeysFit ks n) : ks.map.length = n := by
  obtain ⟨decl, hr, rfl⟩ := h
  obtain ⟨_, entries, _, hI⟩ := hr
  unfold initMap at hI
  simp only at hI
  split at hI
  · cases hI
  · next hlen =>
    split at hI
    · obtain rfl := Option.some.inj hI
      simp only [ne_eq, not_not, List.length_map] at hlen
      exact hlen
    · cases hI

theorem keysFit_index {ks : KeySet} {n : Nat} (h : KeysFit ks n) {e : Name × Key} (he : e ∈ ks.map) : e.2.index < n := by
  obtain ⟨decl, hr, rfl⟩ := h
  have := (registered_getKey hr _ _).1 (registered_map hr he)
  exact (List.getElem?_eq_some_iff.1 this).1

/-! ## Values -/

theorem toks_numJson (q : ℚ) : toks (numJson rnd q) = [numberTok (numJson rnd q)] := by
  unfold numJson
  split <;> rfl

theorem emits_double (q : ℚ) : EmitsVal rnd (formatDouble q) (toks (numJson rnd q)) := by
  rw [toks_numJson]
  exact emits_number (format_like q) (numTok_format rnd q)

theorem emits_index (n : Nat) : EmitsVal rnd (decimal n) (toks (.int n)) :=
  emits_number (decimal_like n) (numTok_decimal rnd n)

theorem emits_comma_blank : Emits rnd ", ".toList [.comma] := emits_comma.append emits_blank

theorem emits_triple {a b c : Text} {x y z : Json} (ha : EmitsVal rnd a (toks x)) (hb : EmitsVal rnd b (toks y))
    (hc : EmitsVal rnd c (toks z)) : Emits rnd (triple a b c) (toks (.list [x, y, z])) := by
  have h := emits_lbrack.append ((ha.append (Or.inl rfl) emits_comma_blank).append
    ((hb.append (Or.inl rfl) emits_comma_blank).append (hc.append (Or.inr (Or.inr rfl)) emits_rbrack)))
  have e1 : ['['] ++ (a ++ ',' :: [' '] ++ (b ++ ',' :: [' '] ++ (c ++ ']' :: []))) = triple a b c := by
    simp [triple]
  have e2 : [Tok.lbrack] ++ (toks x ++ [.comma] ++ (toks y ++ [.comma] ++ (toks z ++ [.rbrack]))) = toks (.list [x, y, z]) := by
    simp [toks, toksAll, joinWith]
  rw [← e1, ← e2]
  exact h

theorem asRead_method (m : Nat) : asRead (methodText m) = some (methodText m) := by
  unfold methodText
  split <;> rfl

theorem asRead_grid (m : Nat) : asRead (gridText m) = some (gridText m) := by
  unfold gridText
  split <;> rfl

theorem emits_val {o : Option (Val ℚ)} (h : WritableVal o) : EmitsVal rnd (printVal o) (toks (valJson rnd o)) := by
  rcases o with _ | v
  · exact (emits_quoted (r := "Not Set.".toList) (by rfl)).val
  · cases v with
    | point v => exact (emits_triple (emits_double _) (emits_double _) (emits_double _)).val
    | vec3i v => exact (emits_triple (emits_index _) (emits_index _) (emits_index _)).val
    | index n => exact emits_index n
    | double q => exact emits_double q
    | string s =>
      obtain ⟨r, hr⟩ := Option.isSome_iff_exists.1 h
      have := emits_quoted (rnd := rnd) hr
      rw [valJson, hr]
      exact this.val
    | bool b =>
      cases b
      · exact emits_word (by rfl) (by decide +kernel) (by decide +kernel)
      · exact emits_word (by rfl) (by decide +kernel) (by decide +kernel)
    | method m => exact (emits_quoted (asRead_method m)).val
    | grid m => exact (emits_quoted (asRead_grid m)).val

/-! ## Loops -/

theorem eachEntry_emits {α : Type _} (f : α → Bool → Res Text) (g : α → List Tok) (more : Bool) (l : List α)
    (h : ∀ a ∈ l, ∀ last, ∃ t, f a last = .ok t ∧ Emits rnd t (g a ++ if last && !more then [] else [.comma])) :
    ∃ t, eachEntry f l = .ok t ∧ Emits rnd t (joinWith more (l.map g)) := by
  induction l with
  | nil => exact ⟨[], rfl, Emits.nil⟩
  | cons a l ih =>
    obtain ⟨t, h1, h2⟩ := h a (by simp) l.isEmpty
    obtain ⟨r, h3, h4⟩ := ih (fun a ha => h a (by simp [ha]))
    refine ⟨t ++ r, by rw [eachEntry, h1, Res.bind, h3, Res.bind], ?_⟩
    rw [List.map_cons, joinWith, show (l.map g).isEmpty = l.isEmpty by cases l <;> rfl]
    exact h2.append h4

theorem emits_label {indent : Text} (hi : Emits rnd indent []) {nm : Name} (hn : PlainText nm) :
    Emits rnd (label indent nm) [.str nm, .colon] := by
  have h := (hi.append (emits_quoted (asRead_plain hn))).append (emits_blank.append (emits_colon.append emits_blank))
  exact h

theorem emits_blanks : Emits rnd blanks [] :=
  emits_blank.append (emits_blank.append (emits_blank.append emits_blank))

theorem allMembers_eq (subs : List (Option (Dict ℚ))) :
    allMembers rnd subs = subs.map (fun o => (o.map (dictMembers rnd)).getD []) := by
  induction subs with
  | nil => rw [allMembers]; rfl
  | cons o l ih => cases o <;> simp [allMembers, ih]

theorem allLists_eq (lists : List (List (Option (Dict ℚ)))) : allLists rnd lists = lists.map (allMembers rnd) := by
  induction lists with
  | nil => rw [allLists]; rfl
  | cons o l ih => simp [allLists, ih]

theorem printers_eq (subs : List (Option (Dict ℚ))) : printers subs = subs.map (Option.map print) := by
  induction subs with
  | nil => rw [printers]; rfl
  | cons o l ih => cases o <;> simp [printers, ih]

theorem printerLists_eq (lists : List (List (Option (Dict ℚ)))) : printerLists lists = lists.map printers := by
  induction lists with
  | nil => rw [printerLists]; rfl
  | cons o l ih => simp [printerLists, ih]

/-- A dictionary prints its members. -/
def Prints (rnd : ℚ → ℚ) (d : Dict ℚ) : Prop :=
  ∀ indent, Emits rnd indent [] → ∃ t, print d indent = .ok t ∧ Emits rnd t (joinWith false (toksPairs (dictMembers rnd d)))

theorem emits_close (more last : Bool) {c : Char} {tok : Tok} (hc : Emits rnd [c] [tok]) :
    Emits rnd (if last = true ∧ more = false then [c, '\n'] else [c, ',', '\n'])
      (tok :: if last && !more then [] else [.comma]) := by
  cases last <;> cases more
  · exact hc.append (emits_comma.append emits_newline)
  · exact hc.append (emits_comma.append emits_newline)
  · exact hc.append emits_newline
  · exact hc.append (emits_comma.append emits_newline)

theorem printData_emits {indent : Text} (hi : Emits rnd indent []) (n : Nat) {data : Option (DataSet ℚ)}
    (hd : ∀ d, data = some d → KeysFit d.keys d.data.length)
    (hp : ∀ d, data = some d → ∀ e ∈ d.keys.map, PlainText e.1)
    (hv : ∀ d, data = some d → ∀ o ∈ d.data, WritableVal o) :
    ∃ t, printData indent n data = .ok t ∧ Emits rnd t (joinWith (decide (n ≠ 0)) (toksPairs (dataMembers rnd data))) := by
  cases data with
  | none => exact ⟨[], rfl, Emits.nil⟩
  | some d =>
    rw [dataMembers, toksPairs_map, List.map_map]
    refine eachEntry_emits _ _ _ _ ?_
    intro e he last
    have hlt := keysFit_index (hd d rfl) he
    obtain ⟨o, ho⟩ : ∃ o, d.data[e.2.index]? = some o := ⟨_, List.getElem?_eq_getElem hlt⟩
    have hv' := emits_val (rnd := rnd) (hv d rfl o (List.mem_of_getElem? ho))
    simp only [ho, Function.comp_apply, Option.getD_some, toksPair]
    refine ⟨_, rfl, ?_⟩
    have hl := emits_label hi (hp d rfl e he)
    by_cases hcase : last = true ∧ n = 0
    · obtain ⟨h1, h2⟩ := hcase
      subst h1 h2
      have h := hl.append (hv'.append (Or.inr (Or.inl rfl)) emits_newline)
      rw [if_pos ⟨rfl, rfl⟩]
      have e1 : label indent e.1 ++ (printVal o ++ ['\n']) = label indent e.1 ++ printVal o ++ "\n".toList := by
        rw [List.append_assoc]; rfl
      rw [← e1]
      simpa using h
    · rw [if_neg hcase]
      have h := hl.append (hv'.append (Or.inl rfl) (emits_comma.append emits_newline))
      have e1 : label indent e.1 ++ (printVal o ++ [',', '\n']) = label indent e.1 ++ printVal o ++ ",\n".toList := by
        rw [List.append_assoc]; rfl
      have e2 : (if (last && !decide (n ≠ 0)) = true then ([] : List Tok) else [.comma]) = [.comma] := by
        rw [if_neg]
        simpa using hcase
      rw [← e1, e2]
      simpa using h

theorem printSubs_emits {indent : Text} (hi : Emits rnd indent []) (n : Nat) {subs : List (Option (Dict ℚ))} {subKeys : Option KeySet}
    (hs : ∀ ks, subKeys = some ks → KeysFit ks subs.length)
    (hp : ∀ ks, subKeys = some ks → ∀ e ∈ ks.map, PlainText e.1)
    (hsub : ∀ d, some d ∈ subs → Prints rnd d) :
    ∃ t, printSubs indent n (printers subs) subKeys = .ok t ∧
      Emits rnd t (joinWith (decide (n ≠ 0)) (toksPairs (subMembers (allMembers rnd subs) subKeys))) := by
  cases subKeys with
  | none => exact ⟨[], rfl, Emits.nil⟩
  | some ks =>
    rw [subMembers, toksPairs_map, List.map_map]
    refine eachEntry_emits _ _ _ _ ?_
    intro e he last
    have hlt := keysFit_index (hs ks rfl) he
    obtain ⟨o, ho⟩ : ∃ o, subs[e.2.index]? = some o := ⟨_, List.getElem?_eq_getElem hlt⟩
    have hin := emits_label hi (hp ks rfl e he)
    have hopen : Emits rnd "{\n".toList [.lbrace] := emits_lbrace.append emits_newline
    have main : ∀ t, Emits rnd t (joinWith false (toksPairs ((o.map (dictMembers rnd)).getD []))) →
        Emits rnd (label indent e.1 ++ "{\n".toList ++ t ++ indent ++
          (if last = true ∧ n = 0 then "}\n".toList else "},\n".toList))
          (Tok.str e.1 :: Tok.colon :: toks (Json.obj ((o.map (dictMembers rnd)).getD [])) ++
            if (last && !decide (n ≠ 0)) = true then [] else [Tok.comma]) := by
      intro t hE
      have hc := emits_close (decide (n ≠ 0)) last (emits_rbrace (rnd := rnd))
      have h := hin.append (hopen.append (hE.append (hi.append hc)))
      have e1 : (if last = true ∧ n = 0 then "}\n".toList else "},\n".toList) =
          (if last = true ∧ decide (n ≠ 0) = false then ['}', '\n'] else ['}', ',', '\n']) := by
        by_cases hn : n = 0 <;> simp [hn]
      rw [e1, toks]
      simpa [List.append_assoc] using h
    rw [printers_eq, allMembers_eq]
    simp only [List.getElem?_map, ho, Option.map_some, Function.comp_apply, Option.getD_some, toksPair]
    cases o with
    | none => exact ⟨_, rfl, main [] Emits.nil⟩
    | some d =>
      obtain ⟨t, ht, hE⟩ := hsub d (List.mem_of_getElem? ho) indent hi
      simp only [Option.map_some, ht]
      exact ⟨_, rfl, main t hE⟩

theorem printEntries_emits {indent : Text} (hi : Emits rnd indent []) {l : List (Option (Dict ℚ))} (hnull : none ∉ l)
    (hl : ∀ d, some d ∈ l → Prints rnd d) :
    ∃ t, printEntries indent (printers l) = .ok t ∧
      Emits rnd t (joinWith false (toksAll ((allMembers rnd l).map .obj))) := by
  rw [toksAll_map, allMembers_eq, printers_eq, printEntries, List.map_map, List.map_map]
  have key : ∃ t, eachEntry (fun (o : Option (Dict ℚ)) last =>
      match o.map print with
      | none => .ub
      | some f => (f indent).bind fun t =>
        .ok (indent ++ "{\n".toList ++ t ++ indent ++ (if last then "}\n".toList else "},\n".toList))) l = .ok t ∧
      Emits rnd t (joinWith false (l.map ((toks ∘ Json.obj) ∘ fun o => (o.map (dictMembers rnd)).getD []))) := by
    refine eachEntry_emits _ _ _ _ ?_
    intro o ho last
    cases o with
    | none => exact absurd ho hnull
    | some d =>
      obtain ⟨t, ht, hE⟩ := hl d ho indent hi
      simp only [Option.map_some, ht, Function.comp_apply, Option.getD_some]
      refine ⟨_, rfl, ?_⟩
      have hopen : Emits rnd "{\n".toList [.lbrace] := emits_lbrace.append emits_newline
      have hc := emits_close false last (emits_rbrace (rnd := rnd))
      have h := hi.append (hopen.append (hE.append (hi.append hc)))
      have e1 : (if last = true then "}\n".toList else "},\n".toList) =
          (if last = true ∧ false = false then ['}', '\n'] else ['}', ',', '\n']) := by
        simp
      rw [e1, toks]
      simpa [List.append_assoc] using h
  obtain ⟨t, ht, hE⟩ := key
  refine ⟨t, ?_, hE⟩
  rw [← ht]
  have : ∀ (f : Printer → Bool → Res Text) (l : List (Option (Dict ℚ))),
      eachEntry f (l.map (Option.map print)) = eachEntry (fun o last => f (o.map print) last) l := by
    intro f l
    induction l with
    | nil => rfl
    | cons o l ih => rw [List.map_cons, eachEntry, eachEntry, ih]; cases l <;> rfl
  rw [this]
  congr 1

theorem printLists_emits {indent : Text} (hi : Emits rnd indent []) {lists : List (List (Option (Dict ℚ)))} {listKeys : Option KeySet}
    (hs : ∀ ks, listKeys = some ks → KeysFit ks lists.length)
    (hp : ∀ ks, listKeys = some ks → ∀ e ∈ ks.map, PlainText e.1)
    (hnull : ∀ l, l ∈ lists → none ∉ l)
    (hl : ∀ l, l ∈ lists → ∀ d, some d ∈ l → Prints rnd d) :
    ∃ t, printLists indent (printerLists lists) listKeys = .ok t ∧
      Emits rnd t (joinWith false (toksPairs (listMembers (allLists rnd lists) listKeys))) := by
  cases listKeys with
  | none => exact ⟨[], rfl, Emits.nil⟩
  | some ks =>
    rw [listMembers, toksPairs_map, List.map_map]
    refine eachEntry_emits _ _ _ _ ?_
    intro e he last
    have hlt := keysFit_index (hs ks rfl) he
    obtain ⟨l, ho⟩ : ∃ l, lists[e.2.index]? = some l := ⟨_, List.getElem?_eq_getElem hlt⟩
    have hin := emits_label hi (hp ks rfl e he)
    have hmem := List.mem_of_getElem? ho
    have hopen : Emits rnd "[\n".toList [.lbrack] := emits_lbrack.append emits_newline
    obtain ⟨t, ht, hE⟩ := printEntries_emits (hi.append emits_blanks) (hnull l hmem) (hl l hmem)
    rw [printerLists_eq, allLists_eq]
    simp only [List.getElem?_map, ho, Option.map_some, Function.comp_apply, Option.getD_some, toksPair, ht]
    refine ⟨_, rfl, ?_⟩
    have hc := emits_close false last (emits_rbrack (rnd := rnd))
    have h := hin.append (hopen.append (hE.append (hi.append hc)))
    have e1 : (if last = true then "]\n".toList else "],\n".toList) =
        (if last = true ∧ false = false then [']', '\n'] else [']', ',', '\n']) := by
      simp
    rw [e1, toks]
    simpa [List.append_assoc] using h

theorem toksPairs_append (a b : List (Name × Json)) : toksPairs (a ++ b) = toksPairs a ++ toksPairs b := by
  simp [toksPairs_map]

theorem mem_data {data : Option (DataSet ℚ)} {subKeys listKeys : Option KeySet} {d : DataSet ℚ} (h : data = some d)
    {e : Name × Key} (he : e ∈ d.keys.map) : e.1 ∈ memberNames data subKeys listKeys := by
  subst h
  exact List.mem_map_of_mem (List.mem_append_left _ (List.mem_append_left _ he))

theorem mem_subs {data : Option (DataSet ℚ)} {subKeys listKeys : Option KeySet} {ks : KeySet} (h : subKeys = some ks)
    {e : Name × Key} (he : e ∈ ks.map) : e.1 ∈ memberNames data subKeys listKeys := by
  subst h
  exact List.mem_map_of_mem (List.mem_append_left _ (List.mem_append_right _ he))

theorem mem_lists {data : Option (DataSet ℚ)} {subKeys listKeys : Option KeySet} {ks : KeySet} (h : listKeys = some ks)
    {e : Name × Key} (he : e ∈ ks.map) : e.1 ∈ memberNames data subKeys listKeys := by
  subst h
  exact List.mem_map_of_mem (List.mem_append_right _ he)

theorem subMembers_length {subs : List (List (Name × Json))} {subKeys : Option KeySet} {n : Nat}
    (hs : ∀ ks, subKeys = some ks → KeysFit ks n) (h0 : subKeys = none → n = 0) : (subMembers subs subKeys).length = n := by
  cases subKeys with
  | none => simp [subMembers, h0 rfl]
  | some ks => simp [subMembers, keysFit_length (hs ks rfl)]

theorem listMembers_length {lists : List (List (List (Name × Json)))} {subKeys : Option KeySet} {n : Nat}
    (hs : ∀ ks, subKeys = some ks → KeysFit ks n) (h0 : subKeys = none → n = 0) : (listMembers lists subKeys).length = n := by
  cases subKeys with
  | none => simp [listMembers, h0 rfl]
  | some ks => simp [listMembers, keysFit_length (hs ks rfl)]

/-- The printed text of a dictionary has the tokens of its members. -/
theorem writable_prints {d : Dict ℚ} (h : Writable d) : Prints rnd d := by
  induction h with
  | @node data subKeys subs listKeys lists hd hs hl hs0 hl0 hnames hplain hvals hsub hnull hlist ihs ihl =>
    intro rIndent hr
    have hi := hr.append (emits_blanks (rnd := rnd))
    obtain ⟨a, ha, hA⟩ := printData_emits hi (subs.length + lists.length) hd
      (fun d e x hx => hplain _ (mem_data e hx)) hvals
    obtain ⟨b, hb, hB⟩ := printSubs_emits hi lists.length hs (fun d e x hx => hplain _ (mem_subs e hx)) ihs
    obtain ⟨c, hc, hC⟩ := printLists_emits hi hl (fun d e x hx => hplain _ (mem_lists e hx)) hnull ihl
    refine ⟨a ++ b ++ c, by rw [print, ha, Res.bind, hb, Res.bind, hc, Res.bind], ?_⟩
    have h := (hA.append hB).append hC
    have l1 := subMembers_length (subs := allMembers rnd subs) hs (fun h => by rw [hs0 h]; rfl)
    have l2 := listMembers_length (lists := allLists rnd lists) hl (fun h => by rw [hl0 h]; rfl)
    have emp : ∀ (l : List (Name × Json)), (toksPairs l).isEmpty = decide (l.length = 0) := by
      intro l; cases l with
      | nil => simp [toksPairs]
      | cons x l => simp [toksPairs]
    rw [dictMembers, toksPairs_append, toksPairs_append]
    rw [← joinWith_append, ← joinWith_append] 
    rw [emp, emp, l1, l2]
    have e1 : decide (subs.length + lists.length ≠ 0) = (false || !decide (lists.length = 0) || !decide (subs.length = 0)) := by
      by_cases h1 : subs.length = 0 <;> by_cases h2 : lists.length = 0 <;> simp [h1, h2]
    have e2 : decide (lists.length ≠ 0) = (false || !decide (lists.length = 0)) := by
      by_cases h2 : lists.length = 0 <;> simp [h2]
    rw [e1, e2] at h
    exact h

/-! ## Distinct names -/

theorem distinct_num (q : ℚ) : Distinct (numJson rnd q) := by
  unfold numJson; split <;> trivial

theorem distinct_val (o : Option (Val ℚ)) : Distinct (valJson rnd o) := by
  rcases o with _ | v
  · trivial
  · cases v with
    | point v => exact ⟨distinct_num _, distinct_num _, distinct_num _, trivial⟩
    | vec3i v => exact ⟨trivial, trivial, trivial, trivial⟩
    | double q => exact distinct_num q
    | _ => trivial

theorem dictMembers_names (data : Option (DataSet ℚ)) (subKeys : Option KeySet) (subs : List (List (Name × Json))) (listKeys : Option KeySet)
    (lists : List (List (List (Name × Json)))) :
    (dataMembers rnd data ++ subMembers subs subKeys ++ listMembers lists listKeys).map (·.1) = memberNames data subKeys listKeys := by
  cases data <;> cases subKeys <;> cases listKeys <;>
    simp [dataMembers, subMembers, listMembers, memberNames, Function.comp_def]

theorem writable_distinct {d : Dict ℚ} (h : Writable d) : Distinct (.obj (dictMembers rnd d)) := by
  induction h with
  | @node data subKeys subs listKeys lists hd hs hl hs0 hl0 hnames hplain hvals hsub hnull hlist ihs ihl =>
    rw [Distinct, dictMembers, distinctPairs_iff]
    refine ⟨by rw [dictMembers_names]; exact hnames, ?_⟩
    intro e he
    rw [List.mem_append, List.mem_append] at he
    rcases he with (he | he) | he
    · cases data with
      | none => simp [dataMembers] at he
      | some d =>
        obtain ⟨x, -, rfl⟩ := List.mem_map.1 he
        exact distinct_val _
    · cases subKeys with
      | none => simp [subMembers] at he
      | some ks =>
        obtain ⟨x, hx, rfl⟩ := List.mem_map.1 he
        have hlt := keysFit_index (hs ks rfl) hx
        obtain ⟨o, ho⟩ : ∃ o, subs[x.2.index]? = some o := ⟨_, List.getElem?_eq_getElem hlt⟩
        rw [allMembers_eq, List.getElem?_map, ho]
        cases o with
        | none => simp [Distinct, DistinctPairs]
        | some d => exact ihs d (List.mem_of_getElem? ho)
    · cases listKeys with
      | none => simp [listMembers] at he
      | some ks =>
        obtain ⟨x, hx, rfl⟩ := List.mem_map.1 he
        have hlt := keysFit_index (hl ks rfl) hx
        obtain ⟨l, ho⟩ : ∃ l, lists[x.2.index]? = some l := ⟨_, List.getElem?_eq_getElem hlt⟩
        rw [allLists_eq, List.getElem?_map, ho, Option.map_some, Option.getD_some, Distinct, distinctAll_iff, allMembers_eq]
        intro j hj
        obtain ⟨y, hy, rfl⟩ := List.mem_map.1 hj
        obtain ⟨o, ho2, rfl⟩ := List.mem_map.1 hy
        cases o with
        | none => exact absurd ho2 (hnull l (List.mem_of_getElem? ho))
        | some d => exact ihl l (List.mem_of_getElem? ho) d ho2

/-- The file of a dictionary is read as the JSON object of its members. -/
theorem load_write {d : Dict ℚ} (h : Writable d) :
    ∃ file, writeJSON d = .ok file ∧ load rnd file = some (.obj (dictMembers rnd d)) := by
  obtain ⟨t, ht, hE⟩ := writable_prints (rnd := rnd) h [] Emits.nil
  refine ⟨"{\n".toList ++ t ++ ['}'], by rw [writeJSON, ht, Res.bind], ?_⟩
  have hopen : Emits rnd "{\n".toList [.lbrace] := emits_lbrace.append emits_newline
  have hall := ((hopen.append hE).append emits_rbrace) []
  rw [List.append_nil] at hall
  have e : scan rnd .start ("{\n".toList ++ t ++ ['}']) = some (toks (.obj (dictMembers rnd d))) := by
    rw [hall, scan, finish, toks]; simp
  rw [load, e, Option.bind_some]
  have := (parse_toks ((toks (.obj (dictMembers rnd d))).length + 1)).1 (.obj (dictMembers rnd d)) [] (by omega) (writable_distinct h)
  rw [List.append_nil] at this
  rw [this]

end QuESo.Json
