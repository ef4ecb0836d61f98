import Verif.Proofs.JsonNumber
import Verif.Proofs.Settings

/-!
# Written dictionaries: tokens and values
-/
namespace QuESo.Json
open QuESo.Settings QuESo.Spec

/-! ## The scanner -/

/-- A text between tokens whose tokens are `ts`, whatever follows. -/
def Emits (rnd : ℚ → ℚ) (t : Text) (ts : List Tok) : Prop :=
  ∀ rest, scan rnd .start (t ++ rest) = (scan rnd .start rest).map (ts ++ ·)

/-- A text between tokens whose tokens are `ts` if a separator follows. -/
def EmitsVal (rnd : ℚ → ℚ) (t : Text) (ts : List Tok) : Prop :=
  ∀ c rest, c = ',' ∨ c = '\n' ∨ c = ']' → scan rnd .start (t ++ c :: rest) = (scan rnd .start (c :: rest)).map (ts ++ ·)

variable {rnd : ℚ → ℚ}

theorem Emits.append {s t : Text} {ss ts : List Tok} (hs : Emits rnd s ss) (ht : Emits rnd t ts) : Emits rnd (s ++ t) (ss ++ ts) := by
  intro rest
  rw [List.append_assoc, hs, ht, Option.map_map]
  congr 1; funext x; simp [List.append_assoc]

theorem Emits.nil : Emits rnd [] [] := by intro rest; simp

theorem Emits.val {t : Text} {ts : List Tok} (h : Emits rnd t ts) : EmitsVal rnd t ts := fun _ _ _ => h _

theorem EmitsVal.append {s t : Text} {c : Char} {ss ts : List Tok} (hs : EmitsVal rnd s ss) (hc : c = ',' ∨ c = '\n' ∨ c = ']')
    (ht : Emits rnd (c :: t) ts) : Emits rnd (s ++ c :: t) (ss ++ ts) := by
  intro rest
  rw [List.append_assoc, List.cons_append, hs _ _ hc, ← List.cons_append, ht, Option.map_map]
  congr 1; funext x; simp [List.append_assoc]

theorem Emits.consVal {s t : Text} {ss ts : List Tok} (hs : Emits rnd s ss) (ht : EmitsVal rnd t ts) : EmitsVal rnd (s ++ t) (ss ++ ts) := by
  intro c rest hc
  rw [List.append_assoc, hs, ht _ _ hc, Option.map_map]
  congr 1; funext x; simp [List.append_assoc]

theorem emits_char {c : Char} {ts : List Tok} (h : begin c = some (ts, .start)) : Emits rnd [c] ts := by
  intro rest
  show scan rnd .start (c :: rest) = _
  rw [scan, step, h]; rfl

theorem emits_blank : Emits rnd [' '] [] := emits_char (by rfl)
theorem emits_newline : Emits rnd ['\n'] [] := emits_char (by rfl)
theorem emits_comma : Emits rnd [','] [.comma] := emits_char (by rfl)
theorem emits_colon : Emits rnd [':'] [.colon] := emits_char (by rfl)
theorem emits_lbrace : Emits rnd ['{'] [.lbrace] := emits_char (by rfl)
theorem emits_rbrace : Emits rnd ['}'] [.rbrace] := emits_char (by rfl)
theorem emits_lbrack : Emits rnd ['['] [.lbrack] := emits_char (by rfl)
theorem emits_rbrack : Emits rnd [']'] [.rbrack] := emits_char (by rfl)

theorem scan_str {s r : Text} (h : asRead s = some r) (acc rest : Text) :
    scan rnd (.str acc) (s ++ '"' :: rest) = (scan rnd .start rest).map (Tok.str (acc.reverse ++ r) :: ·) := by
  induction s using asRead.induct generalizing acc r with
  | case1 =>
    obtain rfl := Option.some.inj h
    rw [List.nil_append, scan, step, if_pos rfl]; simp
  | case2 c t ih =>
    rw [asRead] at h
    cases hc : escape c with
    | none => rw [hc] at h; cases h
    | some d =>
      rw [hc, Option.bind_some] at h
      cases ht : asRead t with
      | none => rw [ht] at h; cases h
      | some r' =>
        rw [ht] at h
        obtain rfl := Option.some.inj h
        rw [List.cons_append, scan, step, if_neg (by decide), if_pos rfl, Option.bind_some]
        show Option.map (fun x => [] ++ x) (scan rnd (.esc acc) (c :: t ++ '"' :: rest)) = _
        rw [List.cons_append, scan, step, hc]
        show Option.map (fun x => [] ++ x) (Option.map (fun x => [] ++ x) (scan rnd (.str (d :: acc)) (t ++ '"' :: rest))) = _
        rw [ih ht]
        simp [Function.comp_def]
  | case3 => rw [asRead] at h; cases h
  | case4 => simp [asRead] at h
  | case5 c t h1 h2 h3 hlt =>
    rw [asRead.eq_5 c t h1 h2 h3, if_pos hlt] at h; cases h
  | case6 c t h1 h2 h3 hlt ih =>
    rw [asRead.eq_5 c t h1 h2 h3, if_neg hlt] at h
    cases ht : asRead t with
    | none => rw [ht] at h; cases h
    | some r' =>
      rw [ht] at h
      obtain rfl := Option.some.inj h
      have hq : c ≠ '"' := by exact h3
      have hb : c ≠ '\\' := by
        rintro rfl
        cases t with
        | nil => exact h2 rfl rfl
        | cons a b => exact h1 a b rfl rfl
      rw [List.cons_append, scan, step, if_neg hq, if_neg hb, if_neg hlt]
      show Option.map (fun x => [] ++ x) (scan rnd (.str (c :: acc)) (t ++ '"' :: rest)) = _
      rw [ih ht]
      simp [Function.comp_def]

theorem emits_quoted {s r : Text} (h : asRead s = some r) : Emits rnd (quoted s) [.str r] := by
  intro rest
  unfold quoted
  rw [List.cons_append, List.cons_append, List.append_assoc, scan, step]
  show Option.map (fun x => [] ++ x) (scan rnd (.str []) (s ++ '"' :: rest)) = _
  rw [scan_str h]
  simp [Function.comp_def]

theorem asRead_plain {s : Text} (h : PlainText s) : asRead s = some s := by
  induction s with
  | nil => rfl
  | cons c t ih =>
    obtain ⟨h1, h2, h3⟩ := h c (by simp)
    rw [asRead.eq_5 c t (by rintro _ _ rfl; exact absurd rfl h2) (by rintro rfl; exact absurd rfl h2)
      (by rintro rfl; exact absurd rfl h1), if_neg (by omega), ih (fun c hc => h c (by simp [hc]))]
    rfl

theorem scan_num {r : Text} (hr : ∀ d ∈ r, isNumChar d = true) (acc : Text) {c : Char} (hc : isNumChar c = false) (rest : Text) :
    scan rnd (.num acc) (r ++ c :: rest) = (numTok rnd (acc.reverse ++ r)).bind fun t => (scan rnd .start (c :: rest)).map (t :: ·) := by
  induction r generalizing acc with
  | nil =>
    rw [List.nil_append, scan, step, if_neg (by simp [hc]), List.append_nil]
    cases numTok rnd acc.reverse with
    | none => rfl
    | some t =>
      rw [Option.bind_some, Option.bind_some, scan, step]
      cases begin c with
      | none => rfl
      | some x => simp [Function.comp_def]
  | cons d r ih =>
    rw [List.cons_append, scan, step, if_pos (hr d (by simp))]
    show Option.map (fun x => [] ++ x) (scan rnd (.num (d :: acc)) (r ++ c :: rest)) = _
    rw [ih (fun d hd => hr d (by simp [hd]))]
    simp

theorem begin_num {c : Char} (h : c = '-' ∨ (digitOf c).isSome) : begin c = some ([], .num [c]) := by
  rcases h with rfl | h
  · rfl
  · unfold begin
    rw [if_neg, if_neg, if_neg, if_neg, if_neg, if_neg, if_neg, if_neg, if_pos (Or.inr h)]
    all_goals first
      | (rintro rfl; exact absurd h (by decide +kernel))
      | (rintro (rfl | rfl | rfl | rfl) <;> exact absurd h (by decide +kernel))

theorem emits_number {t : Text} {tok : Tok} (hl : NumberLike t) (ht : numTok rnd t = some tok) : EmitsVal rnd t [tok] := by
  obtain ⟨d, r, rfl, h1, h2⟩ := hl
  intro c rest hc
  have hn : isNumChar c = false := by rcases hc with rfl | rfl | rfl <;> decide +kernel
  rw [List.cons_append, scan, step, begin_num h1]
  show Option.map (fun x => [] ++ x) (scan rnd (.num [d]) (r ++ c :: rest)) = _
  rw [scan_num h2 [d] hn, show [d].reverse ++ r = d :: r from rfl, ht]
  simp [Function.comp_def]

theorem scan_word {r : Text} (hr : ∀ d ∈ r, d.isAlpha = true) (acc : Text) {c : Char} (hc : c.isAlpha = false) (rest : Text) :
    scan rnd (.word acc) (r ++ c :: rest) = (wordTok (acc.reverse ++ r)).bind fun t => (scan rnd .start (c :: rest)).map (t :: ·) := by
  induction r generalizing acc with
  | nil =>
    rw [List.nil_append, scan, step, if_neg (by simp [hc]), List.append_nil]
    cases wordTok acc.reverse with
    | none => rfl
    | some t =>
      rw [Option.bind_some, Option.bind_some, scan, step]
      cases begin c with
      | none => rfl
      | some x => simp [Function.comp_def]
  | cons d r ih =>
    rw [List.cons_append, scan, step, if_pos (hr d (by simp))]
    show Option.map (fun x => [] ++ x) (scan rnd (.word (d :: acc)) (r ++ c :: rest)) = _
    rw [ih (fun d hd => hr d (by simp [hd]))]
    simp

theorem emits_word {d : Char} {r : Text} {tok : Tok} (h1 : begin d = some ([], .word [d])) (h2 : ∀ d ∈ r, d.isAlpha = true)
    (ht : wordTok (d :: r) = some tok) : EmitsVal rnd (d :: r) [tok] := by
  intro c rest hc
  have hn : c.isAlpha = false := by rcases hc with rfl | rfl | rfl <;> decide +kernel
  rw [List.cons_append, scan, step, h1]
  show Option.map (fun x => [] ++ x) (scan rnd (.word [d]) (r ++ c :: rest)) = _
  rw [scan_word h2 [d] hn, show [d].reverse ++ r = d :: r from rfl, ht]
  simp [Function.comp_def]

/-! ## Tokens of JSON values -/

/-- Items with commas between them, and behind the last one if more items follow. -/
def joinWith (more : Bool) : List (List Tok) → List Tok
  | [] => []
  | x :: l => x ++ (if l.isEmpty && !more then [] else [.comma]) ++ joinWith more l

mutual
/-- The tokens of a value. -/
def toks : Json → List Tok
  | .null => [.null]
  | .bool b => [if b then .true_ else .false_]
  | .int z => [.int z]
  | .float q => [.float q]
  | .str s => [.str s]
  | .list l => .lbrack :: joinWith false (toksAll l) ++ [.rbrack]
  | .obj l => .lbrace :: joinWith false (toksPairs l) ++ [.rbrace]
def toksAll : List Json → List (List Tok)
  | [] => []
  | j :: l => toks j :: toksAll l
def toksPairs : List (Name × Json) → List (List Tok)
  | [] => []
  | e :: l => toksPair e :: toksPairs l
def toksPair : Name × Json → List Tok
  | (k, j) => .str k :: .colon :: toks j
end

theorem toksAll_map (l : List Json) : toksAll l = l.map toks := by
  induction l with
  | nil => simp [toksAll]
  | cons j l ih => simp [toksAll, ih]

theorem toksPairs_map (l : List (Name × Json)) : toksPairs l = l.map toksPair := by
  induction l with
  | nil => simp [toksPairs]
  | cons j l ih => simp [toksPairs, ih]

theorem joinWith_append (m : Bool) (a b : List (List Tok)) :
    joinWith (m || !b.isEmpty) a ++ joinWith m b = joinWith m (a ++ b) := by
  induction a with
  | nil => rfl
  | cons x a ih =>
    show x ++ _ ++ joinWith (m || !b.isEmpty) a ++ joinWith m b = x ++ _ ++ joinWith m (a ++ b)
    rw [List.append_assoc, ih]
    congr 2
    cases a <;> cases b <;> cases m <;> rfl

/-! ## The parser -/

mutual
/-- The names of each object are distinct. -/
def Distinct : Json → Prop
  | .list l => DistinctAll l
  | .obj l => (l.map (·.1)).Nodup ∧ DistinctPairs l
  | _ => True
def DistinctAll : List Json → Prop
  | [] => True
  | j :: l => Distinct j ∧ DistinctAll l
def DistinctPairs : List (Name × Json) → Prop
  | [] => True
  | e :: l => DistinctPair e ∧ DistinctPairs l
def DistinctPair : Name × Json → Prop
  | (_, j) => Distinct j
end

theorem distinctAll_iff (l : List Json) : DistinctAll l ↔ ∀ j ∈ l, Distinct j := by
  induction l with
  | nil => simp [DistinctAll]
  | cons j l ih => simp [DistinctAll, ih]

theorem distinctPairs_iff (l : List (Name × Json)) : DistinctPairs l ↔ ∀ e ∈ l, Distinct e.2 := by
  induction l with
  | nil => simp [DistinctPairs]
  | cons j l ih => obtain ⟨k, j⟩ := j; simp [DistinctPairs, DistinctPair, ih]

theorem pyDict_nodup {l : List (Name × Json)} (h : (l.map (·.1)).Nodup) : pyDict l = l := by
  have key : ∀ (l acc : List (Name × Json)), ((acc ++ l).map (·.1)).Nodup →
      l.foldl (fun d e => pyInsert d e.1 e.2) acc = acc ++ l := by
    intro l
    induction l with
    | nil => intro acc _; simp
    | cons e l ih =>
      intro acc hn
      rw [List.foldl_cons]
      have hnot : ¬ acc.any (fun x => decide (x.1 = e.1)) = true := by
        intro ha
        obtain ⟨x, hx, hx2⟩ := List.any_eq_true.1 ha
        have hx2 : x.1 = e.1 := by simpa using hx2
        rw [List.map_append, List.nodup_append] at hn
        exact hn.2.2 x.1 (List.mem_map_of_mem hx) e.1 (by simp) hx2
      rw [pyInsert, if_neg hnot, ih _ (by simpa using hn)]
      simp
  simpa [pyDict] using key l [] (by simpa using h)

/-- Values that do not begin with a closing bracket or brace. -/
theorem toks_head (j : Json) : ∃ x r, toks j = x :: r ∧ x ≠ .rbrack ∧ x ≠ .rbrace := by
  cases j with
  | null => exact ⟨_, _, rfl, by simp, by simp⟩
  | bool b => cases b <;> exact ⟨_, _, rfl, by simp, by simp⟩
  | int z => exact ⟨_, _, rfl, by simp, by simp⟩
  | float z => exact ⟨_, _, rfl, by simp, by simp⟩
  | str z => exact ⟨_, _, rfl, by simp, by simp⟩
  | list l => exact ⟨.lbrack, joinWith false (toksAll l) ++ [.rbrack], by simp [toks], by simp, by simp⟩
  | obj l => exact ⟨.lbrace, joinWith false (toksPairs l) ++ [.rbrace], by simp [toks], by simp, by simp⟩

theorem parse_toks (n : Nat) :
    (∀ j rest, (toks j).length ≤ n → Distinct j → parseValue n (toks j ++ rest) = some (j, rest)) ∧
    (∀ l rest, l ≠ [] → (joinWith false (toksPairs l)).length < n → DistinctPairs l →
      parseMembers n (joinWith false (toksPairs l) ++ .rbrace :: rest) = some (l, rest)) ∧
    (∀ l rest, l ≠ [] → (joinWith false (toksAll l)).length < n → DistinctAll l →
      parseElements n (joinWith false (toksAll l) ++ .rbrack :: rest) = some (l, rest)) := by
  induction n with
  | zero =>
    refine ⟨?_, fun _ _ _ h => absurd h (by omega), fun _ _ _ h => absurd h (by omega)⟩
    intro j rest h
    obtain ⟨x, r, hx, -⟩ := toks_head j
    rw [hx] at h; simp at h
  | succ n ih =>
    obtain ⟨ihv, ihm, ihe⟩ := ih
    refine ⟨?_, ?_, ?_⟩
    · intro j rest hlen hd
      cases j with
      | null => rfl
      | bool b => cases b <;> rfl
      | int z => rfl
      | float z => rfl
      | str z => rfl
      | list l =>
        cases l with
        | nil => rfl
        | cons j l =>
          have hne : j :: l ≠ [] := by simp
          generalize hL : j :: l = L at *
          have hlen' : (joinWith false (toksAll L)).length < n := by
            rw [toks] at hlen; simp at hlen; omega
          have e := ihe L rest hne hlen' (by rw [Distinct] at hd; exact hd)
          obtain ⟨x, r, hx, hx1, hx2⟩ : ∃ x r, joinWith false (toksAll L) = x :: r ∧ x ≠ .rbrack ∧ x ≠ .rbrace := by
            rw [← hL, toksAll]
            obtain ⟨x, r, hx, h1⟩ := toks_head j
            exact ⟨x, _, by rw [joinWith, hx]; rfl, h1⟩
          rw [toks, List.cons_append, List.cons_append, List.append_assoc, List.singleton_append]
          rw [hx] at e ⊢
          rw [List.cons_append] at e ⊢
          rw [parseValue.eq_11 n (x :: (r ++ .rbrack :: rest)) (by rintro r' ⟨rfl, -⟩; exact hx1 rfl), e]
          rfl
      | obj l =>
        cases l with
        | nil => rfl
        | cons j l =>
          have hne : j :: l ≠ [] := by simp
          generalize hL : j :: l = L at *
          have hlen' : (joinWith false (toksPairs L)).length < n := by
            rw [toks] at hlen; simp at hlen; omega
          rw [Distinct] at hd
          have e := ihm L rest hne hlen' hd.2
          obtain ⟨x, r, hx, hx1⟩ : ∃ x r, joinWith false (toksPairs L) = x :: r ∧ x ≠ .rbrace := by
            rw [← hL, toksPairs]
            obtain ⟨k, j⟩ := j
            exact ⟨.str k, _, by rw [joinWith, toksPair]; rfl, by simp⟩
          rw [toks, List.cons_append, List.cons_append, List.append_assoc, List.singleton_append]
          rw [hx] at e ⊢
          rw [List.cons_append] at e ⊢
          rw [parseValue.eq_9 n (x :: (r ++ .rbrace :: rest)) (by rintro r' ⟨rfl, -⟩; exact hx1 rfl), e]
          show some (Json.obj (pyDict L), rest) = _
          rw [pyDict_nodup hd.1]
    · intro l rest hne hlen hd
      cases l with
      | nil => exact absurd rfl hne
      | cons e l =>
        obtain ⟨k, j⟩ := e
        rw [DistinctPairs, DistinctPair] at hd
        rw [toksPairs, toksPair, joinWith] at hlen ⊢
        simp only [List.length_append, List.length_cons] at hlen
        rw [List.append_assoc, List.append_assoc, List.cons_append, List.cons_append, parseMembers, ihv j _ (by omega) hd.1]
        cases l with
        | nil => rfl
        | cons e2 l2 =>
          have h0 : toksPairs (e2 :: l2) = toksPair e2 :: toksPairs l2 := by rw [toksPairs]
          have hc : (if (toksPairs (e2 :: l2)).isEmpty && !false then ([] : List Tok) else [.comma]) = [.comma] := by
            rw [h0]; rfl
          rw [hc] at hlen ⊢
          show Option.map _ (parseMembers n (joinWith false (toksPairs (e2 :: l2)) ++ .rbrace :: rest)) = _
          rw [ihm (e2 :: l2) rest (by simp) (by simp at hlen; omega) hd.2]
          rfl
    · intro l rest hne hlen hd
      cases l with
      | nil => exact absurd rfl hne
      | cons j l =>
        rw [DistinctAll] at hd
        rw [toksAll, joinWith] at hlen ⊢
        simp only [List.length_append] at hlen
        rw [List.append_assoc, List.append_assoc, parseElements, ihv j _ (by omega) hd.1]
        cases l with
        | nil => rfl
        | cons e2 l2 =>
          have h0 : toksAll (e2 :: l2) = toks e2 :: toksAll l2 := by rw [toksAll]
          have hc : (if (toksAll (e2 :: l2)).isEmpty && !false then ([] : List Tok) else [.comma]) = [.comma] := by
            rw [h0]; rfl
          rw [hc] at hlen ⊢
          show Option.map _ (parseElements n (joinWith false (toksAll (e2 :: l2)) ++ .rbrack :: rest)) = _
          rw [ihe (e2 :: l2) rest (by simp) (by simp at hlen; omega) hd.2]
          rfl

end QuESo.Json
