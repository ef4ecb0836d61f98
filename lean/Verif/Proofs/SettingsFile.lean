import Verif.Proofs.JsonSettings
import Verif.Spec.SettingsFile

/-! # Reading of settings files written by hand -/
namespace QuESo.Json
open QuESo.Settings QuESo.Spec

variable {rnd : ℚ → ℚ} {cond : Dict ℚ}

theorem loadIndex_eq (j : Json) : loadIndex j = asIndex j := by cases j <;> rfl

theorem loadDouble_true (j : Json) : loadDouble rnd true j = asNumber rnd j := by cases j <;> rfl

theorem isText_eq (j : Json) : isText "Not Set.".toList j = notSet j := by cases j <;> rfl

theorem given_compiles (decl : Decl) (nm : Name) {j : Json} {g : Given ℚ} (h : given rnd j = some g) : Compiles decl (.setName nm g) := by
  have key : ∀ c, overloads rnd c j = some g → Compiles decl (.setName nm g) := by
    intro c hc
    unfold overloads at hc
    cases h1 : loadTriple (loadDouble rnd c) j with
    | some v => rw [h1, Option.map_some, some_or] at hc; cases hc; exact ⟨by simp [Val.ty], by simp [Val.ty]⟩
    | none =>
      rw [h1, Option.map_none, none_or] at hc
      cases h2 : loadTriple loadIndex j with
      | some v => rw [h2, Option.map_some, some_or] at hc; cases hc; trivial
      | none =>
        rw [h2, Option.map_none, none_or] at hc
        cases h3 : loadBool c j with
        | some v => rw [h3, Option.map_some, some_or] at hc; cases hc; exact ⟨by simp [Val.ty], by simp [Val.ty]⟩
        | none =>
          rw [h3, Option.map_none, none_or] at hc
          cases h4 : loadDouble rnd c j with
          | some v => rw [h4, Option.map_some, some_or] at hc; cases hc; exact ⟨by simp [Val.ty], by simp [Val.ty]⟩
          | none =>
            rw [h4, Option.map_none, none_or] at hc
            cases h5 : loadIndex j with
            | some v => rw [h5, Option.map_some, some_or] at hc; cases hc; exact Or.inr (Int.natCast_nonneg _)
            | none =>
              rw [h5, Option.map_none, none_or] at hc
              cases h6 : loadString j with
              | some v => rw [h6, Option.map_some] at hc; cases hc; exact ⟨by simp [Val.ty], by simp [Val.ty]⟩
              | none => rw [h6] at hc; cases hc
  unfold given at h
  cases h1 : overloads rnd false j with
  | none => rw [h1, none_or] at h; exact key true h
  | some g' => rw [h1, some_or] at h; cases h; exact key false h1

theorem given_list (l : List Json) : given rnd (.list l) =
    (((loadTriple (loadDouble rnd false) (.list l)).map fun v => Given.other (Val.point v)) <|>
    ((loadTriple loadIndex (.list l)).map fun v => Given.vec3i v) <|>
    ((loadTriple (loadDouble rnd true) (.list l)).map fun v => Given.other (Val.point v))) := by
  unfold given overloads
  have nb : ∀ c, loadBool c (.list l) = none := fun _ => rfl
  have nl : ∀ c, loadDouble rnd c (.list l) = none := fun _ => rfl
  have ni : loadIndex (.list l) = none := rfl
  have ns : loadString (.list l) = none := rfl
  simp only [nb, nl, ni, ns, Option.map_none, none_or]
  cases loadTriple (loadDouble rnd false) (.list l) <;> cases loadTriple loadIndex (.list l) <;>
    cases loadTriple (loadDouble rnd true) (.list l) <;> rfl

theorem loadTriple_map {α : Type _} (f : Json → Option α) (a b c : Json) : loadTriple f (.list [a, b, c]) =
    match f a, f b, f c with
    | some x, some y, some z => some ⟨x, y, z⟩
    | _, _, _ => none := by
  simp only [loadTriple]
  cases f a <;> cases f b <;> cases f c <;> rfl

theorem loadDouble_false {j : Json} {q : ℚ} (h : loadDouble rnd false j = some q) : j = .float q := by
  cases j <;> simp [loadDouble] at h
  rw [h]

theorem asNumber_float (q : ℚ) : asNumber rnd (.float q) = some q := rfl
theorem asIndex_float (q : ℚ) : asIndex (.float q) = none := rfl

theorem index_number (h0 : rnd 0 = 0) (h1 : rnd 1 = 1) {j : Json} {n : Nat} (h : asIndex j = some n) : asNumber rnd j = some (rnd n) := by
  cases j with
  | int z =>
    change (if 0 ≤ z ∧ z < 2 ^ 64 then some z.toNat else none) = some n at h
    by_cases hz : 0 ≤ z ∧ z < 2 ^ 64
    · rw [if_pos hz] at h
      cases h
      have : (z : ℚ) = ((z.toNat : ℕ) : ℚ) := by
        rw [show ((z.toNat : ℕ) : ℚ) = ((z.toNat : Int) : ℚ) by rw [Int.cast_natCast], Int.toNat_of_nonneg hz.1]
      simp [asNumber, this]
    · rw [if_neg hz] at h; cases h
  | bool b => cases b <;> simp [asIndex] at h <;> subst h <;> simp [asNumber, h0, h1]
  | _ => cases h

/-- What the overloads of `SetValue` make of a JSON value for a key that is no enumeration. -/
theorem given_value (h0 : rnd 0 = 0) (h1 : rnd 1 = 1) {t : Ty} (hm : t ≠ .method) (hg : t ≠ .grid) (j : Json) (hobj : ∀ l, j ≠ .obj l) :
    ((given rnd j).bind fun g => coerce (fun z => rnd z) t g) = fileValue rnd t j := by
  cases j with
  | obj l => exact absurd rfl (hobj l)
  | null => cases t <;> first | rfl | exact absurd rfl hm | exact absurd rfl hg
  | bool b => cases t <;> first | rfl | exact absurd rfl hm | exact absurd rfl hg
  | float q => cases t <;> first | rfl | exact absurd rfl hm | exact absurd rfl hg
  | str s => cases t <;> first | rfl | exact absurd rfl hm | exact absurd rfl hg
  | int z =>
    by_cases hz : 0 ≤ z ∧ z < 2 ^ 64
    · have hg1 : given rnd (.int z) = some (.int z.toNat false) := by
        unfold given overloads
        simp only [loadTriple, loadBool, loadDouble, loadIndex, if_pos hz]
        rfl
      rw [hg1, Option.bind_some, Int.toNat_of_nonneg hz.1]
      cases t <;> simp only [coerce, fileValue, if_pos hz, if_pos hz.1] <;> first | rfl | exact absurd rfl hm | exact absurd rfl hg
    · have hz0 : z ≠ 0 := by rintro rfl; exact hz ⟨le_rfl, by norm_num⟩
      have hg1 : given rnd (.int z) = some (.other (.bool true)) := by
        unfold given overloads
        simp only [loadTriple, loadBool, loadDouble, loadIndex, if_neg hz, loadString]
        simp [hz0]
      rw [hg1, Option.bind_some]
      cases t <;> simp only [coerce, fileValue, if_neg hz] <;> first | rfl | exact absurd rfl hm | exact absurd rfl hg
  | list l =>
    rw [given_list]
    by_cases hl : ∃ a b c, l = [a, b, c]
    · obtain ⟨a, b, c, rfl⟩ := hl
      rw [loadTriple_map, loadTriple_map, loadTriple_map]
      simp only [loadIndex_eq, loadDouble_true]
      cases ha : loadDouble rnd false a with
      | some x =>
        cases hb : loadDouble rnd false b with
        | some y =>
          cases hc : loadDouble rnd false c with
          | some z =>
            cases loadDouble_false ha
            cases loadDouble_false hb
            cases loadDouble_false hc
            cases t <;> first | rfl | exact absurd rfl hm | exact absurd rfl hg
          | none =>
            cases loadDouble_false ha
            cases loadDouble_false hb
            cases hx : asNumber rnd c <;> cases t <;> simp [fileValue, coerce, asIndex_float, asNumber_float, Val.ty, hx]
        | none =>
          cases loadDouble_false ha
          cases hx : asNumber rnd b <;> cases hy : asNumber rnd c <;> cases t <;>
            simp [fileValue, coerce, asIndex_float, asNumber_float, Val.ty, hx, hy]
      | none =>
        simp only [Option.map_none, none_or]
        cases hxa : asIndex a with
        | some n =>
          have na := index_number h0 h1 hxa
          cases hxb : asIndex b with
          | some m =>
            have nb := index_number h0 h1 hxb
            cases hxc : asIndex c with
            | some k =>
              have nc := index_number h0 h1 hxc
              cases t <;> simp [fileValue, coerce, hxa, hxb, hxc, na, nb, nc]
            | none =>
              cases hx : asNumber rnd c <;> cases t <;> simp [fileValue, coerce, hxa, hxb, hxc, na, nb, hx, Val.ty]
          | none =>
            cases hx : asNumber rnd b <;> cases hy : asNumber rnd c <;> cases t <;>
              simp [fileValue, coerce, hxa, hxb, na, hx, hy, Val.ty]
        | none =>
          cases hz : asNumber rnd a <;> cases hx : asNumber rnd b <;> cases hy : asNumber rnd c <;> cases t <;>
            simp [fileValue, coerce, hxa, hx, hy, hz, Val.ty]
    · have hn : ∀ {α : Type} (f : Json → Option α), loadTriple f (.list l) = none := by
        intro α f
        unfold loadTriple
        split
        · rename_i a b c he
          cases he
          exact absurd ⟨_, _, _, rfl⟩ hl
        · rfl
      rw [hn, hn, hn]
      simp only [Option.map_none, none_or, Option.bind_none]
      symm
      unfold fileValue
      split <;> first | rfl | (rename_i he; cases he; exact absurd ⟨_, _, _, rfl⟩ hl) | (rename_i he; cases he)

theorem methodOf_eq (s : Text) : (methodOf s).map Val.method = fileValue rnd .method (.str s) := by
  simp only [methodOf, fileValue, methodNames, List.findIdx?_cons, List.findIdx?_nil, decide_eq_true_eq, eq_comm (a := s)]
  repeat' split
  all_goals first | rfl | simp_all

theorem gridOf_eq (s : Text) : (gridOf s).map Val.grid = fileValue rnd .grid (.str s) := by
  simp only [gridOf, fileValue, gridNames, List.findIdx?_cons, List.findIdx?_nil, decide_eq_true_eq, eq_comm (a := s)]
  repeat' split
  all_goals first | rfl | simp_all

/-- Names of enumerations and nothing else have the types of enumerations. -/
def EnumDecl (decl : Decl) : Prop :=
  ∀ e ∈ decl, (e.2.1 = .method ↔ e.1 = "integration_method".toList) ∧ (e.2.1 = .grid ↔ e.1 = "grid_type".toList)

theorem declType_mem {decl : Decl} {nm : Name} {t : Ty} (h : declType decl nm = some t) : ∃ r, (nm, t, r) ∈ decl := by
  unfold declType at h
  cases hf : decl.find? (fun e => decide (e.1 = nm)) with
  | none => rw [hf] at h; cases h
  | some e =>
    rw [hf] at h
    have h1 := List.find?_some hf
    simp only [decide_eq_true_eq] at h1
    obtain ⟨a, b, r⟩ := e
    simp only [Option.map_some, Option.some.injEq] at h h1
    subst h; subst h1
    exact ⟨r, List.mem_of_find?_eq_some hf⟩

/-- `SetValue` by name on a section. -/
theorem setValue_section {decl : Decl} {ks : KeySet} (h : Registered decl ks) (f : Name → Option (Val ℚ)) (nm : Name) (g : Given ℚ)
    (hc : Compiles decl (.setName nm g)) :
    setValue rnd nm g (values ks (decl.map fun x => f x.1)) =
      match (declType decl nm).bind fun t => coerce (fun z => rnd z) t g with
      | none => .error
      | some v => .ok (values ks (decl.map fun x => if x.1 = nm then some v else f x.1)) := by
  simp only [setValue, values]
  rw [setName_eq (d := ⟨ks, decl.map fun x => f x.1⟩) _ h (by simp) nm g hc, declType_eq h]
  cases hk : ks.getKey nm with
  | none => rfl
  | some k =>
    simp only [Option.bind_some, Option.map_some]
    cases hv : coerce (fun z => rnd z) k.ty g with
    | none => rfl
    | some v =>
      simp only [Option.map_some, Res.bind]
      rw [set_holds h.1 ((registered_getKey h nm k).1 hk)]

/-- One member of a section. -/
theorem readPair_section (h0 : rnd 0 = 0) (h1 : rnd 1 = 1) {decl : Decl} {ks : KeySet} (h : Registered decl ks) (hE : EnumDecl decl)
    (f : Name → Option (Val ℚ)) (e : Name × Json) :
    readPair rnd cond e (values ks (decl.map fun x => f x.1)) =
      if notSet e.2 = true then .ok (values ks (decl.map fun x => f x.1))
      else match (declType decl e.1).bind fun t => fileValue rnd t e.2 with
        | none => .error
        | some v => .ok (values ks (decl.map fun x => if x.1 = e.1 then some v else f x.1)) := by
  obtain ⟨nm, j⟩ := e
  have hgiven : ∀ j : Json, (∀ l, j ≠ .obj l) → (∀ t, declType decl nm = some t → (t = .method ∨ t = .grid) →
      (∀ g, given rnd j = some g → coerce (fun z => rnd z) t g = none) ∧ fileValue rnd t j = none) →
      (match given rnd j with
        | none => (Res.error : Res (Dict ℚ))
        | some g => setValue rnd nm g (values ks (decl.map fun x : KeyDecl => f x.1))) =
      match (declType decl nm).bind fun t => fileValue rnd t j with
        | none => .error
        | some v => .ok (values ks (decl.map fun x => if x.1 = nm then some v else f x.1)) := by
    intro j hj hen
    have hval : ∀ t, declType decl nm = some t → ((given rnd j).bind fun g => coerce (fun z => rnd z) t g) = fileValue rnd t j := by
      intro t ht
      by_cases hm : t = .method ∨ t = .grid
      · obtain ⟨e1, e2⟩ := hen t ht hm
        rw [e2]
        cases hg : given rnd j with
        | none => rfl
        | some g => exact e1 g hg
      · rw [not_or] at hm
        exact given_value h0 h1 hm.1 hm.2 j hj
    cases hg : given rnd j with
    | none =>
      cases ht : declType decl nm with
      | none => rfl
      | some t =>
        have := hval t ht
        rw [hg, Option.bind_none] at this
        rw [Option.bind_some, ← this]
    | some g =>
      simp only
      rw [setValue_section h f nm g (given_compiles decl nm hg)]
      cases ht : declType decl nm with
      | none => rfl
      | some t =>
        have := hval t ht
        rw [hg, Option.bind_some] at this
        rw [Option.bind_some, Option.bind_some, this]
  have cm : ∀ m : Nat, Compiles decl (.setName nm (.other (.method m)) : Op ℚ) := fun m => ⟨by simp [Val.ty], by simp [Val.ty]⟩
  have cg : ∀ m : Nat, Compiles decl (.setName nm (.other (.grid m)) : Op ℚ) := fun m => ⟨by simp [Val.ty], by simp [Val.ty]⟩
  have hset : ∀ j : Json, (∀ l, j ≠ .obj l) → (∀ l, j ≠ .list l) →
      setJson rnd nm j (values ks (decl.map fun x => f x.1)) =
      if notSet j = true then .ok (values ks (decl.map fun x => f x.1))
      else match (declType decl nm).bind fun t => fileValue rnd t j with
        | none => .error
        | some v => .ok (values ks (decl.map fun x => if x.1 = nm then some v else f x.1)) := by
    intro j hj hl
    unfold setJson
    rw [isText_eq]
    by_cases hns : notSet j = true
    · rw [if_pos hns, if_pos hns]
    rw [if_neg hns, if_neg hns]
    have hstr : ∀ t, t = .method ∨ t = .grid → (∀ s, j ≠ .str s) → fileValue rnd t j = none := by
      rintro t (rfl | rfl) hs <;> cases j <;> first | rfl | exact absurd rfl (hs _)
    by_cases hm : nm = "integration_method".toList
    · rw [if_pos hm]
      have ht : ∀ t, declType decl nm = some t → t = .method := by
        intro t ht
        obtain ⟨r, hr⟩ := declType_mem ht
        exact (hE _ hr).1.2 hm
      cases j with
      | str s =>
        simp only [loadString, Option.bind_some]
        cases hd : declType decl nm with
        | none =>
          simp only [Option.bind_none]
          cases hmo : methodOf s with
          | none => rfl
          | some m =>
            simp only
            rw [setValue_section h f nm _ (cm m), hd]
            rfl
        | some t =>
          cases ht t hd
          rw [Option.bind_some, ← methodOf_eq]
          cases hmo : methodOf s with
          | none => rfl
          | some m =>
            simp only [Option.map_some]
            rw [setValue_section h f nm _ (cm m), hd]
            rfl
      | obj l => exact absurd rfl (hj l)
      | list l => exact absurd rfl (hl l)
      | _ =>
        simp only [loadString, Option.bind_none]
        cases hd : declType decl nm with
        | none => rfl
        | some t => cases ht t hd; rfl
    rw [if_neg hm]
    by_cases hg : nm = "grid_type".toList
    · rw [if_pos hg]
      have ht : ∀ t, declType decl nm = some t → t = .grid := by
        intro t ht
        obtain ⟨r, hr⟩ := declType_mem ht
        exact (hE _ hr).2.2 hg
      cases j with
      | str s =>
        simp only [loadString, Option.bind_some]
        cases hd : declType decl nm with
        | none =>
          simp only [Option.bind_none]
          cases hmo : gridOf s with
          | none => rfl
          | some m =>
            simp only
            rw [setValue_section h f nm _ (cg m), hd]
            rfl
        | some t =>
          cases ht t hd
          rw [Option.bind_some, ← gridOf_eq]
          cases hmo : gridOf s with
          | none => rfl
          | some m =>
            simp only [Option.map_some]
            rw [setValue_section h f nm _ (cg m), hd]
            rfl
      | obj l => exact absurd rfl (hj l)
      | list l => exact absurd rfl (hl l)
      | _ =>
        simp only [loadString, Option.bind_none]
        cases hd : declType decl nm with
        | none => rfl
        | some t => cases ht t hd; rfl
    rw [if_neg hg]
    apply hgiven j hj
    rintro t ht (rfl | rfl)
    · obtain ⟨r, hr⟩ := declType_mem ht
      exact absurd ((hE _ hr).1.1 rfl) hm
    · obtain ⟨r, hr⟩ := declType_mem ht
      exact absurd ((hE _ hr).2.1 rfl) hg
  unfold readPair
  cases j with
  | obj l =>
    simp only [readEntry, values, onSub, notSet, Bool.false_eq_true, if_false]
    cases declType decl nm with
    | none => rfl
    | some t => cases t <;> rfl
  | list l =>
    simp only [notSet, Bool.false_eq_true, if_false]
    cases l with
    | nil =>
      simp only [readEntry]
      cases declType decl nm with
      | none => rfl
      | some t => cases t <;> rfl
    | cons x r =>
      by_cases hx : ∃ l, x = .obj l
      · obtain ⟨l, rfl⟩ := hx
        simp only [readEntry, values, onList]
        have : ∀ t, fileValue rnd t (.list (.obj l :: r)) = none := by
          intro t
          by_cases hr : ∃ b c, r = [b, c]
          · obtain ⟨b, c, rfl⟩ := hr
            cases t <;> rfl
          · unfold fileValue
            split <;> first | rfl | (rename_i he; cases he; exact absurd ⟨_, _, rfl⟩ hr) | (rename_i he; cases he)
        cases declType decl nm with
        | none => rfl
        | some t => rw [Option.bind_some, this]
      · have : readEntry rnd cond nm (.list (x :: r)) (values ks (decl.map fun x => f x.1)) =
            match given rnd (.list (x :: r)) with
            | none => .error
            | some g => setValue rnd nm g (values ks (decl.map fun x => f x.1)) := by
          cases x <;> first | (exact absurd ⟨_, rfl⟩ hx) | (simp only [readEntry]; generalize given rnd _ = q; cases q <;> rfl)
        rw [this]
        apply hgiven _ (by simp)
        rintro t ht hmg
        refine ⟨?_, ?_⟩
        · intro g hg
          rw [given_list] at hg
          have hpt : ∀ v, coerce (fun z => rnd z) t (Given.other (Val.point v)) = none := by
            intro v; rcases hmg with rfl | rfl <;> rfl
          have hpi : ∀ v, coerce (fun z => rnd z) t (Given.vec3i v) = none := by
            intro v; rcases hmg with rfl | rfl <;> rfl
          cases q1 : loadTriple (loadDouble rnd false) (.list (x :: r)) with
          | some v => rw [q1, Option.map_some, some_or] at hg; cases hg; exact hpt v
          | none =>
            rw [q1, Option.map_none, none_or] at hg
            cases q2 : loadTriple loadIndex (.list (x :: r)) with
            | some v => rw [q2, Option.map_some, some_or] at hg; cases hg; exact hpi v
            | none =>
              rw [q2, Option.map_none, none_or] at hg
              cases q3 : loadTriple (loadDouble rnd true) (.list (x :: r)) with
              | some v => rw [q3, Option.map_some] at hg; cases hg; exact hpt v
              | none => rw [q3] at hg; cases hg
        · rcases hmg with rfl | rfl <;> rfl
  | null => simp only [readEntry]; exact hset _ (by simp) (by simp)
  | bool b => simp only [readEntry]; exact hset _ (by simp) (by simp)
  | int z => simp only [readEntry]; exact hset _ (by simp) (by simp)
  | float q => simp only [readEntry]; exact hset _ (by simp) (by simp)
  | str t => simp only [readEntry]; exact hset _ (by simp) (by simp)

/-! ## A section -/

theorem member_cons (e : Name × Json) (l : List (Name × Json)) (nm : Name) :
    member (e :: l) nm = if e.1 = nm then some e.2 else member l nm := by
  unfold member
  rw [List.find?_cons]
  by_cases h : e.1 = nm
  · simp [h]
  · simp [h]

theorem member_none {l : List (Name × Json)} {nm : Name} (h : nm ∉ l.map (·.1)) : member l nm = none := by
  unfold member
  rw [List.find?_eq_none.2]
  · rfl
  · intro e he
    simp only [decide_eq_true_eq]
    rintro rfl
    exact h (List.mem_map_of_mem he)

/-- All members of a section: they are read in order if they suit, and the last value counts; names are distinct. -/
theorem readMembers_section (h0 : rnd 0 = 0) (h1 : rnd 1 = 1) {decl : Decl} {ks : KeySet} (h : Registered decl ks) (hE : EnumDecl decl) :
    ∀ (l : List (Name × Json)) (f : Name → Option (Val ℚ)), (l.map (·.1)).Nodup →
    (SectionOk rnd decl l → readMembers rnd cond l (values ks (decl.map fun x => f x.1)) =
      .ok (values ks (decl.map fun x => (sectionValue rnd decl l x.1).or (f x.1)))) ∧
    (¬ SectionOk rnd decl l → readMembers rnd cond l (values ks (decl.map fun x => f x.1)) = .error)
  | [], f, _ => ⟨fun _ => rfl, fun hn => absurd (fun e he => by simp at he) hn⟩
  | e :: l, f, hnd => by
    rw [List.map_cons, List.nodup_cons] at hnd
    have hp : ∀ d, readEntry rnd cond e.1 e.2 d = readPair rnd cond e d := by
      intro d; obtain ⟨a, b⟩ := e; simp only [readPair]
    rw [readMembers_cons, hp, readPair_section h0 h1 h hE]
    have hiff : SectionOk rnd decl (e :: l) ↔
        (notSet e.2 = true ∨ ∃ t v, declType decl e.1 = some t ∧ fileValue rnd t e.2 = some v) ∧ SectionOk rnd decl l := by
      unfold SectionOk; simp
    have hval : ∀ nm, sectionValue rnd decl (e :: l) nm = if e.1 = nm then
        (if notSet e.2 = true then none else (declType decl nm).bind fun t => fileValue rnd t e.2) else sectionValue rnd decl l nm := by
      intro nm
      unfold sectionValue
      rw [member_cons]
      by_cases hnm : e.1 = nm
      · rw [if_pos hnm, if_pos hnm]; rfl
      · rw [if_neg hnm, if_neg hnm]
    have hout : sectionValue rnd decl l e.1 = none := by
      unfold sectionValue; rw [member_none hnd.1]; rfl
    by_cases hns : notSet e.2 = true
    · rw [if_pos hns]
      have ih := readMembers_section h0 h1 h hE l f hnd.2
      simp only [Res.bind]
      rw [hiff]
      refine ⟨fun hs => ?_, fun hs => ih.2 fun h' => hs ⟨.inl hns, h'⟩⟩
      rw [ih.1 hs.2]
      congr 3
      funext x
      rw [hval]
      by_cases hx : e.1 = x.1
      · rw [if_pos hx, if_pos hns, ← hx, hout]
      · rw [if_neg hx]
    · rw [if_neg hns]
      cases hv : (declType decl e.1).bind fun t => fileValue rnd t e.2 with
      | none =>
        simp only [Res.bind]
        refine ⟨fun hs => ?_, fun _ => trivial⟩
        rcases (hiff.1 hs).1 with h' | ⟨t, v, ht, hv'⟩
        · exact absurd h' hns
        · rw [ht, Option.bind_some, hv'] at hv; cases hv
      | some v =>
        simp only [Res.bind]
        have ih := readMembers_section h0 h1 h hE l (fun nm => if nm = e.1 then some v else f nm) hnd.2
        obtain ⟨t, ht, htv⟩ := Option.bind_eq_some_iff.1 hv
        rw [hiff]
        refine ⟨fun hs => ?_, fun hs => ih.2 fun h' => hs ⟨.inr ⟨t, v, ht, htv⟩, h'⟩⟩
        rw [ih.1 hs.2]
        congr 3
        funext x
        rw [hval]
        by_cases hx : e.1 = x.1
        · rw [if_pos hx, if_neg hns, ← hx, hv, hout, if_pos rfl]; rfl
        · rw [if_neg hx, if_neg (fun h => hx h.symm)]

/-! ## A file -/

/-- The key set of a section. -/
def sectionKeys (ks : SettingsKeys) : Nat → KeySet
  | 0 => ks.general
  | 1 => ks.grid
  | 2 => ks.trimmed
  | _ => ks.nonTrimmed

/-- Settings with the values `F` in the sections and `C` in the conditions. -/
def settingsWith (ks : SettingsKeys) (F : Name → Name → Option (Val ℚ)) (C : List (Name → Option (Val ℚ))) : Dict ℚ :=
  .node none (some ks.mainSub) (sections.mapIdx fun i s => some (values (sectionKeys ks i) (s.2.map fun x => F s.1.toList x.1)))
    (some ks.mainList) [C.map fun f => some (values ks.condition (conditionDecl.map fun x => f x.1))]

theorem sections_registered {ks : SettingsKeys} (hk : KeysRegistered ks) {i : Nat} {s : String × Decl} (h : sections[i]? = some s) :
    Registered s.2 (sectionKeys ks i) ∧ EnumDecl s.2 := by
  unfold sections at h
  rcases i with _ | _ | _ | _ | i <;> simp at h
  · subst h; exact ⟨hk.general, by unfold EnumDecl; decide +kernel⟩
  · subst h; exact ⟨hk.grid, by unfold EnumDecl; decide +kernel⟩
  · subst h; exact ⟨hk.trimmed, by unfold EnumDecl; decide +kernel⟩
  · subst h; exact ⟨hk.nonTrimmed, by unfold EnumDecl; decide +kernel⟩

theorem condition_enumDecl : EnumDecl conditionDecl := by unfold EnumDecl; decide +kernel

theorem mainSub_sections : mainSubDecl = sections.map fun s => objectKey s.1 := rfl

/-- The conditions of a list. -/
theorem readList_conditions (h0 : rnd 0 = 0) (h1 : rnd 1 = 1) {ks : SettingsKeys} (hk : KeysRegistered ks) :
    ∀ (cs : List Json), (∀ c ∈ cs, ∀ l, c = .obj l → (l.map (·.1)).Nodup) →
    ((∀ c ∈ cs, ∃ l, c = .obj l ∧ SectionOk rnd conditionDecl l) →
      readList rnd (values ks.condition (conditionDecl.map fun _ => none)) cs =
        .ok (cs.map fun c => values ks.condition (conditionDecl.map fun x => sectionValue rnd conditionDecl (membersOf c) x.1))) ∧
    (¬ (∀ c ∈ cs, ∃ l, c = .obj l ∧ SectionOk rnd conditionDecl l) →
      readList rnd (values ks.condition (conditionDecl.map fun _ => none)) cs = .error)
  | [], _ => ⟨fun _ => by simp only [readList, List.map_nil], fun hn => absurd (fun c hc => by simp at hc) hn⟩
  | c :: cs, hnd => by
    have ih := readList_conditions h0 h1 hk cs fun c hc => hnd c (List.mem_cons_of_mem _ hc)
    have hiff : (∀ c' ∈ c :: cs, ∃ l, c' = .obj l ∧ SectionOk rnd conditionDecl l) ↔
        (∃ l, c = .obj l ∧ SectionOk rnd conditionDecl l) ∧ ∀ c' ∈ cs, ∃ l, c' = .obj l ∧ SectionOk rnd conditionDecl l := by simp
    rw [hiff]
    by_cases hc : ∃ l, c = .obj l
    · obtain ⟨l, rfl⟩ := hc
      have hs := readMembers_section (cond := values ks.condition (conditionDecl.map fun _ => none)) h0 h1 hk.condition condition_enumDecl
        l (fun _ => none) (hnd _ (by simp) l rfl)
      simp only [readList]
      by_cases hok : SectionOk rnd conditionDecl l
      · rw [hs.1 hok]
        simp only [Res.bind]
        by_cases hr : ∀ c' ∈ cs, ∃ l, c' = .obj l ∧ SectionOk rnd conditionDecl l
        · refine ⟨fun _ => ?_, fun hn => absurd ⟨⟨l, rfl, hok⟩, hr⟩ hn⟩
          rw [ih.1 hr]
          simp only [Res.bind, List.map_cons, membersOf, Option.or_none]
        · refine ⟨fun h => absurd h.2 hr, fun _ => ?_⟩
          rw [ih.2 hr]
      · rw [hs.2 hok]
        refine ⟨?_, fun _ => rfl⟩
        rintro ⟨⟨l', he, h⟩, -⟩
        cases he
        exact absurd h hok
    · refine ⟨fun h => ?_, fun _ => ?_⟩
      · obtain ⟨⟨l, he, -⟩, -⟩ := h
        exact absurd ⟨l, he⟩ hc
      · cases c <;> first | exact absurd ⟨_, rfl⟩ hc | simp only [readList]

/-- What the reader wants of one member of the outermost object. -/
def EntryOk (rnd : ℚ → ℚ) (e : Name × Json) : Prop :=
  notSet e.2 = true ∨
    (∃ s ∈ sections, e.1 = s.1.toList ∧ ∃ l, e.2 = .obj l ∧ SectionOk rnd s.2 l) ∨
    (e.1 = conditionsName.toList ∧ ∃ cs, e.2 = .list cs ∧ cs ≠ [] ∧ ∀ c ∈ cs, ∃ l, c = .obj l ∧ SectionOk rnd conditionDecl l)

/-- Names are distinct in the objects of a member. -/
def EntryNodup (j : Json) : Prop :=
  ((membersOf j).map (·.1)).Nodup ∧ ∀ c ∈ elementsOf j, ∀ l, c = .obj l → (l.map (·.1)).Nodup

/-- The keys of a section. -/
def declOf (nm : Name) : Decl := ((sections.find? fun s => decide (s.1.toList = nm)).map (·.2)).getD []

theorem declOf_section {i : Nat} {s : String × Decl} (h : sections[i]? = some s) : declOf s.1.toList = s.2 := by
  unfold sections at h
  rcases i with _ | _ | _ | _ | i <;> simp at h <;> subst h <;> rfl

/-- One member of the outermost object. -/
theorem readEntry_main (h0 : rnd 0 = 0) (h1 : rnd 1 = 1) {ks : SettingsKeys} (hk : KeysRegistered ks) (e : Name × Json)
    (hnd : EntryNodup e.2) (F : Name → Name → Option (Val ℚ)) (C : List (Name → Option (Val ℚ))) :
    (EntryOk rnd e → readEntry rnd (values ks.condition (conditionDecl.map fun _ => none)) e.1 e.2 (settingsWith ks F C) =
      .ok (settingsWith ks (fun sec nm => if sec = e.1 then (sectionValue rnd (declOf sec) (membersOf e.2) nm).or (F sec nm) else F sec nm)
        (if e.1 = conditionsName.toList then C ++ (elementsOf e.2).map fun c => sectionValue rnd conditionDecl (membersOf c) else C))) ∧
    (¬ EntryOk rnd e → readEntry rnd (values ks.condition (conditionDecl.map fun _ => none)) e.1 e.2 (settingsWith ks F C) = .error) := by
  obtain ⟨nm, j⟩ := e
  simp only at hnd ⊢
  have hsame : ∀ j : Json, membersOf j = [] → elementsOf j = [] →
      settingsWith ks (fun sec x => if sec = nm then (sectionValue rnd (declOf sec) (membersOf j) x).or (F sec x) else F sec x)
        (if nm = conditionsName.toList then C ++ (elementsOf j).map fun c => sectionValue rnd conditionDecl (membersOf c) else C) =
      settingsWith ks F C := by
    intro j h1 h2
    rw [h1, h2]
    have : ∀ sec x, sectionValue rnd (declOf sec) [] x = none := fun _ _ => rfl
    simp [this]
  have hset : ∀ g, setValue rnd nm g (settingsWith ks F C) = .error := fun _ => rfl
  have hjson : ∀ j : Json, (∀ l, j ≠ .obj l) → (∀ l, j ≠ .list l) →
      (EntryOk rnd (nm, j) → setJson rnd nm j (settingsWith ks F C) =
      .ok (settingsWith ks (fun sec x => if sec = nm then (sectionValue rnd (declOf sec) (membersOf j) x).or (F sec x) else F sec x)
        (if nm = conditionsName.toList then C ++ (elementsOf j).map fun c => sectionValue rnd conditionDecl (membersOf c) else C))) ∧
      (¬ EntryOk rnd (nm, j) → setJson rnd nm j (settingsWith ks F C) = .error) := by
    intro j ho hl
    rw [hsame j (by cases j <;> first | rfl | exact absurd rfl (ho _)) (by cases j <;> first | rfl | exact absurd rfl (hl _))]
    unfold setJson
    rw [isText_eq]
    by_cases hns : notSet j = true
    · rw [if_pos hns]
      exact ⟨fun _ => rfl, fun h => absurd (.inl hns) h⟩
    · rw [if_neg hns]
      refine ⟨fun h => ?_, fun _ => ?_⟩
      · rcases h with h | ⟨s, -, -, l, h, -⟩ | ⟨-, cs, h, -⟩
        · exact absurd h hns
        · exact absurd h (ho l)
        · exact absurd h (hl cs)
      · split
        · split
          · rfl
          · exact hset _
        · split
          · split
            · rfl
            · exact hset _
          · split
            · rfl
            · exact hset _
  cases j with
  | obj l =>
    have hl : (l.map (·.1)).Nodup := hnd.1
    have hel : elementsOf (.obj l) = [] := rfl
    have hns : notSet (.obj l) = false := rfl
    simp only [readEntry, settingsWith, onSub]
    cases hkey : ks.mainSub.getKey nm with
    | none =>
      refine ⟨fun h => ?_, fun _ => rfl⟩
      exfalso
      rcases h with h | ⟨s, hs, hn, -⟩ | ⟨-, cs, h, -⟩
      · rw [hns] at h; cases h
      · obtain ⟨i, hi⟩ := List.mem_iff_getElem?.1 hs
        have : mainSubDecl[i]? = some (nm, .index, false) := by
          rw [mainSub_sections, List.getElem?_map, hi]
          simp only at hn
          simp [objectKey, hn]
        rw [(registered_getKey hk.mainSub nm ⟨i, .index, false⟩).2 this] at hkey
        cases hkey
      · cases h
    | some k =>
      have hdecl := (registered_getKey hk.mainSub nm k).1 hkey
      rw [mainSub_sections, List.getElem?_map, Option.map_eq_some_iff] at hdecl
      obtain ⟨s, hs, hnm⟩ := hdecl
      have hnm : s.1.toList = nm := congrArg Prod.fst hnm
      obtain ⟨hreg, hen⟩ := sections_registered hk hs
      simp only [List.getElem?_mapIdx, hs, Option.map_some]
      have hsec := readMembers_section (cond := values ks.condition (conditionDecl.map fun _ => none)) h0 h1 hreg hen l (F s.1.toList) hl
      have hiff : EntryOk rnd (nm, .obj l) ↔ SectionOk rnd s.2 l := by
        constructor
        · rintro (h | ⟨s', hs', hn, l', hl', hok⟩ | ⟨-, cs, h, -⟩)
          · rw [hns] at h; cases h
          · cases hl'
            simp only at hn
            obtain ⟨i, hi⟩ := List.mem_iff_getElem?.1 hs'
            have := declOf_section hi
            rw [← hn, ← hnm, declOf_section hs] at this
            rw [this]; exact hok
          · cases h
        · intro h
          exact .inr (.inl ⟨s, List.mem_of_getElem? hs, hnm.symm, l, rfl, h⟩)
      rw [hiff]
      refine ⟨fun h => ?_, fun h => by rw [hsec.2 h]; rfl⟩
      rw [hsec.1 h]
      simp only [Res.bind, Res.ok.injEq, Dict.node.injEq, true_and]
      refine ⟨?_, ?_⟩
      · apply List.ext_getElem?
        intro i
        rw [List.getElem?_set, List.getElem?_mapIdx, List.getElem?_mapIdx]
        by_cases hi : k.index = i
        · subst hi
          have hlt := (List.getElem?_eq_some_iff.1 hs).1
          rw [if_pos rfl, if_pos (by simpa using hlt), hs]
          simp only [Option.map_some, hnm, if_true, membersOf]
          rw [← hnm, declOf_section hs]
        · rw [if_neg hi]
          cases hsi : sections[i]? with
          | none => rfl
          | some s' =>
            simp only [Option.map_some]
            have hne : s'.1.toList ≠ nm := by
              intro he
              apply hi
              have hnd' : (sections.map fun s => s.1.toList).Nodup := by decide +kernel
              have a : (sections.map fun s => s.1.toList)[k.index]? = some nm := by simp [hs, hnm]
              have b : (sections.map fun s => s.1.toList)[i]? = some nm := by simp [hsi, he]
              obtain ⟨la, ea⟩ := List.getElem?_eq_some_iff.1 a
              obtain ⟨lb, eb⟩ := List.getElem?_eq_some_iff.1 b
              exact (List.Nodup.getElem_inj_iff hnd').1 (ea.trans eb.symm)
            simp only [if_neg hne]
      · rw [hel]; simp
  | list cs =>
    have hns : notSet (.list cs) = false := rfl
    cases cs with
    | nil =>
      simp only [readEntry]
      refine ⟨fun h => ?_, fun _ => trivial⟩
      rcases h with h | ⟨s, -, -, l, h, -⟩ | ⟨-, cs, h, hne, -⟩
      · cases h
      · cases h
      · cases h; exact absurd rfl hne
    | cons c r =>
      by_cases hc : ∃ l, c = .obj l
      · obtain ⟨l, rfl⟩ := hc
        simp only [readEntry, settingsWith, onList]
        cases hkey : ks.mainList.getKey nm with
        | none =>
          refine ⟨fun h => ?_, fun _ => rfl⟩
          exfalso
          rcases h with h | ⟨s, -, -, l, h, -⟩ | ⟨hn, -⟩
          · cases h
          · cases h
          · have : mainListDecl[0]? = some (nm, .index, false) := by
              simp only at hn; rw [hn]; rfl
            rw [(registered_getKey hk.mainList nm ⟨0, .index, false⟩).2 this] at hkey
            cases hkey
        | some k =>
          have hdecl := (registered_getKey hk.mainList nm k).1 hkey
          have hk0 : k.index = 0 ∧ nm = conditionsName.toList := by
            rcases hki : k.index with _ | n
            · rw [hki] at hdecl
              exact ⟨rfl, (congrArg Prod.fst (Option.some.inj hdecl)).symm⟩
            · rw [hki] at hdecl; simp [mainListDecl] at hdecl
          obtain ⟨hi, rfl⟩ := hk0
          simp only [hi, List.getElem?_cons_zero]
          have hlist := readList_conditions h0 h1 hk (.obj l :: r) hnd.2
          have heq : ((readMembers rnd (values ks.condition (conditionDecl.map fun _ => none)) l
              (values ks.condition (conditionDecl.map fun _ => none))).bind fun x =>
              (readList rnd (values ks.condition (conditionDecl.map fun _ => none)) r).bind fun y => .ok (x :: y)) =
              readList rnd (values ks.condition (conditionDecl.map fun _ => none)) (.obj l :: r) := by simp only [readList]
          rw [heq]
          have hiff : EntryOk rnd (conditionsName.toList, .list (.obj l :: r)) ↔
              ∀ c ∈ (.obj l :: r : List Json), ∃ l, c = .obj l ∧ SectionOk rnd conditionDecl l := by
            constructor
            · rintro (h | ⟨s, -, -, l, h, -⟩ | ⟨-, cs, h, -, hok⟩)
              · cases h
              · cases h
              · cases h; exact hok
            · intro h
              exact .inr (.inr ⟨rfl, _, rfl, by simp, h⟩)
          rw [hiff]
          refine ⟨fun h => ?_, fun h => by rw [hlist.2 h]; rfl⟩
          rw [hlist.1 h]
          simp only [Res.bind, Res.ok.injEq, Dict.node.injEq, true_and, elementsOf, if_true, List.set_cons_zero]
          refine ⟨?_, ?_⟩
          · have : membersOf (.list (.obj l :: r)) = [] := rfl
            have hz : ∀ sec x, sectionValue rnd (declOf sec) [] x = none := fun _ _ => rfl
            simp [this, hz]
          · simp [Function.comp_def]
      · have : readEntry rnd (values ks.condition (conditionDecl.map fun _ => none)) nm (.list (c :: r)) (settingsWith ks F C) = .error := by
          cases c <;> first | (exact absurd ⟨_, rfl⟩ hc) | (simp only [readEntry]; generalize given rnd _ = q; cases q <;> rfl)
        refine ⟨fun h => ?_, fun _ => this⟩
        rcases h with h | ⟨s, -, -, l, h, -⟩ | ⟨-, cs, h, -, hok⟩
        · cases h
        · cases h
        · cases h
          obtain ⟨l, hl, -⟩ := hok c (by simp)
          exact absurd ⟨l, hl⟩ hc
  | null => simp only [readEntry]; exact hjson _ (by simp) (by simp)
  | bool b => simp only [readEntry]; exact hjson _ (by simp) (by simp)
  | int z => simp only [readEntry]; exact hjson _ (by simp) (by simp)
  | float q => simp only [readEntry]; exact hjson _ (by simp) (by simp)
  | str t => simp only [readEntry]; exact hjson _ (by simp) (by simp)

theorem sectionIn_cons (e : Name × Json) (l : List (Name × Json)) (nm : Name) :
    sectionIn (e :: l) nm = if e.1 = nm then membersOf e.2 else sectionIn l nm := by
  unfold sectionIn
  rw [member_cons]
  by_cases h : e.1 = nm
  · rw [if_pos h, if_pos h]; rfl
  · rw [if_neg h, if_neg h]

theorem conditionsIn_cons (e : Name × Json) (l : List (Name × Json)) :
    conditionsIn (e :: l) = if e.1 = conditionsName.toList then (elementsOf e.2).map membersOf else conditionsIn l := by
  unfold conditionsIn
  rw [member_cons]
  by_cases h : e.1 = conditionsName.toList
  · rw [if_pos h, if_pos h]; rfl
  · rw [if_neg h, if_neg h]

/-- All members of the outermost object. -/
theorem readMembers_main (h0 : rnd 0 = 0) (h1 : rnd 1 = 1) {ks : SettingsKeys} (hk : KeysRegistered ks) :
    ∀ (ms : List (Name × Json)) (F : Name → Name → Option (Val ℚ)) (C : List (Name → Option (Val ℚ))), (ms.map (·.1)).Nodup →
    (∀ e ∈ ms, EntryNodup e.2) →
    (FileOk rnd ms → readMembers rnd (values ks.condition (conditionDecl.map fun _ => none)) ms (settingsWith ks F C) =
      .ok (settingsWith ks (fun sec nm => (sectionValue rnd (declOf sec) (sectionIn ms sec) nm).or (F sec nm))
        (C ++ (conditionsIn ms).map fun l => sectionValue rnd conditionDecl l))) ∧
    (¬ FileOk rnd ms → readMembers rnd (values ks.condition (conditionDecl.map fun _ => none)) ms (settingsWith ks F C) = .error)
  | [], F, C, _, _ => by
    refine ⟨fun _ => ?_, fun hn => absurd (fun e he => by simp at he) hn⟩
    have : ∀ sec x, sectionValue rnd (declOf sec) (sectionIn [] sec) x = none := fun _ _ => rfl
    simp only [readMembers, this, Option.none_or]
    simp [conditionsIn, member]
  | e :: ms, F, C, hnd, hen => by
    rw [List.map_cons, List.nodup_cons] at hnd
    have hstep := readEntry_main h0 h1 hk e (hen e (by simp)) F C
    have hiff : FileOk rnd (e :: ms) ↔ EntryOk rnd e ∧ FileOk rnd ms := by
      unfold FileOk EntryOk; simp only [List.mem_cons, forall_eq_or_imp]
    rw [readMembers_cons, hiff]
    by_cases he : EntryOk rnd e
    · rw [hstep.1 he]
      simp only [Res.bind]
      have ih := readMembers_main h0 h1 hk ms
        (fun sec nm => if sec = e.1 then (sectionValue rnd (declOf sec) (membersOf e.2) nm).or (F sec nm) else F sec nm)
        (if e.1 = conditionsName.toList then C ++ (elementsOf e.2).map fun c => sectionValue rnd conditionDecl (membersOf c) else C)
        hnd.2 (fun e' he' => hen e' (List.mem_cons_of_mem _ he'))
      refine ⟨fun h => ?_, fun h => ih.2 fun h' => h ⟨he, h'⟩⟩
      rw [ih.1 h.2]
      congr 1
      congr 1
      · funext sec nm
        rw [sectionIn_cons]
        by_cases hs : e.1 = sec
        · have : sectionIn ms sec = [] := by unfold sectionIn; rw [← hs, member_none hnd.1]; rfl
          rw [if_pos hs, if_pos hs.symm, this]; rfl
        · rw [if_neg hs, if_neg (fun h => hs h.symm)]
      · rw [conditionsIn_cons]
        by_cases hs : e.1 = conditionsName.toList
        · have : conditionsIn ms = [] := by unfold conditionsIn; rw [← hs, member_none hnd.1]; rfl
          rw [if_pos hs, if_pos hs, this]
          simp [Function.comp_def]
        · rw [if_neg hs, if_neg hs]
    · rw [hstep.2 he]
      exact ⟨fun h => absurd h.1 he, fun _ => rfl⟩

/-! ## Names in Python dictionaries are distinct -/

/-- In all objects the names are distinct. -/
inductive PyDistinct : Json → Prop
  | null : PyDistinct .null
  | bool (b) : PyDistinct (.bool b)
  | int (z) : PyDistinct (.int z)
  | float (q) : PyDistinct (.float q)
  | str (s) : PyDistinct (.str s)
  | list {l} (h : ∀ j ∈ l, PyDistinct j) : PyDistinct (.list l)
  | obj {l : List (Name × Json)} (hn : (l.map (·.1)).Nodup) (h : ∀ e ∈ l, PyDistinct e.2) : PyDistinct (.obj l)

theorem pyInsert_distinct {l : List (Name × Json)} (hn : (l.map (·.1)).Nodup) (h : ∀ e ∈ l, PyDistinct e.2) {nm : Name} {v : Json}
    (hv : PyDistinct v) : ((pyInsert l nm v).map (·.1)).Nodup ∧ ∀ e ∈ pyInsert l nm v, PyDistinct e.2 := by
  unfold pyInsert
  split
  · refine ⟨?_, ?_⟩
    · have : (l.map fun e => if e.1 = nm then (nm, v) else e).map (·.1) = l.map (·.1) := by
        rw [List.map_map]
        apply List.map_congr_left
        intro e _
        simp only [Function.comp]
        split
        · rename_i h; exact h.symm
        · rfl
      rw [this]; exact hn
    · intro e he
      obtain ⟨e', he', rfl⟩ := List.mem_map.1 he
      split
      · exact hv
      · exact h _ he'
  · rename_i hany
    refine ⟨?_, ?_⟩
    · rw [List.map_append, List.nodup_append]
      refine ⟨hn, by simp, ?_⟩
      intro a ha b hb
      simp only [List.map_cons, List.map_nil, List.mem_singleton] at hb
      subst hb
      rintro rfl
      obtain ⟨e, he, rfl⟩ := List.mem_map.1 ha
      apply hany
      rw [List.any_eq_true]
      exact ⟨e, he, by simp⟩
    · intro e he
      rw [List.mem_append] at he
      rcases he with he | he
      · exact h _ he
      · simp only [List.mem_singleton] at he; subst he; exact hv

theorem pyDict_distinct {l : List (Name × Json)} (h : ∀ e ∈ l, PyDistinct e.2) : PyDistinct (.obj (pyDict l)) := by
  unfold pyDict
  have key : ∀ (l d : List (Name × Json)), (∀ e ∈ l, PyDistinct e.2) → (d.map (·.1)).Nodup → (∀ e ∈ d, PyDistinct e.2) →
      PyDistinct (.obj (l.foldl (fun d e => pyInsert d e.1 e.2) d)) := by
    intro l
    induction l with
    | nil => intro d _ hn hd; exact .obj hn hd
    | cons e l ih =>
      intro d hl hn hd
      rw [List.foldl_cons]
      obtain ⟨a, b⟩ := pyInsert_distinct hn hd (nm := e.1) (hl e (by simp))
      exact ih _ (fun x hx => hl x (List.mem_cons_of_mem _ hx)) a b
  exact key l [] h (by simp) (by simp)

theorem parse_distinct : ∀ n : Nat, (∀ ts j r, parseValue n ts = some (j, r) → PyDistinct j) ∧
    (∀ ts l r, parseMembers n ts = some (l, r) → ∀ e ∈ l, PyDistinct e.2) ∧
    (∀ ts l r, parseElements n ts = some (l, r) → ∀ j ∈ l, PyDistinct j)
  | 0 => by
    refine ⟨?_, ?_, ?_⟩ <;> intro ts j r h
    · simp [parseValue] at h
    · simp [parseMembers] at h
    · simp [parseElements] at h
  | n + 1 => by
    obtain ⟨ihv, ihm, ihe⟩ := parse_distinct n
    refine ⟨?_, ?_, ?_⟩
    · intro ts j r h
      unfold parseValue at h
      split at h
      · rename_i he; cases he
      · cases h; exact .str _
      · cases h; exact .int _
      · cases h; exact .float _
      · cases h; exact .bool _
      · cases h; exact .bool _
      · cases h; exact .null
      · cases h; exact .obj (by simp) (by simp)
      · rename_i he
        cases he
        rw [Option.map_eq_some_iff] at h
        obtain ⟨⟨l, r'⟩, h1, h2⟩ := h
        cases h2
        exact pyDict_distinct (ihm _ _ _ h1)
      · cases h; exact .list (by simp)
      · rename_i he
        cases he
        rw [Option.map_eq_some_iff] at h
        obtain ⟨⟨l, r'⟩, h1, h2⟩ := h
        cases h2
        exact .list (ihe _ _ _ h1)
      · cases h
    · intro ts l r h
      unfold parseMembers at h
      split at h
      · rename_i he; cases he
      · rename_i he
        cases he
        rw [Option.bind_eq_some_iff] at h
        obtain ⟨⟨v, r1⟩, h1, h2⟩ := h
        have hv := ihv _ _ _ h1
        simp only at h2
        split at h2
        · rw [Option.map_eq_some_iff] at h2
          obtain ⟨⟨l', r'⟩, h3, h4⟩ := h2
          cases h4
          intro e he
          rcases List.mem_cons.1 he with rfl | he
          · exact hv
          · exact ihm _ _ _ h3 e he
        · cases h2
          intro e he
          rw [List.mem_singleton] at he
          subst he
          exact hv
        · cases h2
      · cases h
    · intro ts l r h
      unfold parseElements at h
      rw [Option.bind_eq_some_iff] at h
      obtain ⟨⟨v, r1⟩, h1, h2⟩ := h
      have hv := ihv _ _ _ h1
      simp only at h2
      split at h2
      · rw [Option.map_eq_some_iff] at h2
        obtain ⟨⟨l', r'⟩, h3, h4⟩ := h2
        cases h4
        intro e he
        rcases List.mem_cons.1 he with rfl | he
        · exact hv
        · exact ihe _ _ _ h3 e he
      · cases h2
        intro e he
        rw [List.mem_singleton] at he
        subst he
        exact hv
      · cases h2

theorem load_distinct {file : Text} {j : Json} (h : load rnd file = some j) : PyDistinct j := by
  unfold load at h
  rw [Option.bind_eq_some_iff] at h
  obtain ⟨ts, -, h⟩ := h
  split at h
  · rename_i v he
    cases h
    exact (parse_distinct _).1 _ _ _ he
  · cases h

theorem distinct_entry {j : Json} (h : PyDistinct j) : EntryNodup j := by
  cases h with
  | list h =>
    refine ⟨by simp [membersOf], ?_⟩
    intro c hc l hl
    subst hl
    cases h _ hc with
    | obj hn _ => exact hn
  | obj hn _ => exact ⟨hn, by simp [elementsOf]⟩
  | _ => exact ⟨by simp [membersOf], by simp [elementsOf]⟩

/-! ## Values of settings -/

theorem valueOf_section {decl : Decl} {ks : KeySet} (h : Registered decl ks) (f : Name → Option (Val ℚ)) (nm : Name) :
    valueOf nm (values ks (decl.map fun x => f x.1)) = if (declType decl nm).isSome = true then f nm else none := by
  simp only [valueOf, values]
  rw [declType_eq h]
  cases hk : ks.getKey nm with
  | none => rfl
  | some k =>
    have := (registered_getKey h nm k).1 hk
    simp [this]

theorem values_valueOf {decl : Decl} {ks : KeySet} (h : Registered decl ks) {data : List (Option (Val ℚ))} (hlen : data.length = decl.length) :
    values ks (decl.map fun x => valueOf x.1 (values ks data)) = values ks data := by
  unfold values
  congr 3
  apply List.ext_getElem?
  intro i
  rw [List.getElem?_map]
  cases hd : decl[i]? with
  | none =>
    rw [List.getElem?_eq_none_iff] at hd
    rw [List.getElem?_eq_none (by omega)]
    rfl
  | some x =>
    obtain ⟨nm, t, r⟩ := x
    have hk := (registered_getKey h nm ⟨i, t, r⟩).2 hd
    have hi : i < data.length := by
      rw [hlen]; exact (List.getElem?_eq_some_iff.1 hd).1
    simp [valueOf, hk, hi]

end QuESo.Json
