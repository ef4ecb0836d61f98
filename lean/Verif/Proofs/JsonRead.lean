import Verif.Proofs.JsonPrint

/-!
# Reading settings files
-/
namespace QuESo.Json
open QuESo.Settings QuESo.Spec

variable {rnd : ℚ → ℚ} {cond : Dict ℚ}

/-! ## Single values -/

theorem none_or {α : Type _} (x : Option α) : (none <|> x) = x := rfl
theorem some_or {α : Type _} (a : α) (x : Option α) : (some a <|> x) = some a := rfl

theorem loadIndex_nat {n : Nat} (h : n < 2 ^ 64) : loadIndex (.int n) = some n := by
  rw [loadIndex, if_pos ⟨by omega, by exact_mod_cast h⟩, Int.toNat_natCast]

theorem loadIndex_cases (z : Int) : loadIndex (.int z) = none ∨ 0 ≤ z ∧ loadIndex (.int z) = some z.toNat := by
  rw [loadIndex]
  split
  · next h => exact Or.inr ⟨h.1, rfl⟩
  · exact Or.inl rfl

theorem numJson_cases (rnd : ℚ → ℚ) (q : ℚ) :
    (∃ z : Int, numJson rnd q = .int z ∧ (z : ℚ) = tenSignificant q ∧ z.natAbs < 10 ^ 10 ∧ (z < 0 → NegativeWhole q)) ∨
      numJson rnd q = .float (rnd (tenSignificant q)) := by
  unfold numJson
  split
  · next h =>
    have e := Rat.coe_int_num_of_den_eq_one h.1
    refine Or.inl ⟨_, rfl, e, h.2, fun hz => ⟨?_, h⟩⟩
    rw [← e]; exact_mod_cast hz
  · exact Or.inr rfl

/-- The value of a JSON number. -/
def IsNum (rnd : ℚ → ℚ) (j : Json) (r : ℚ) : Prop := (∃ z : Int, j = .int z ∧ r = rnd z ∧ z.natAbs < 10 ^ 10) ∨ j = .float r

theorem isNum_numJson (q : ℚ) : IsNum rnd (numJson rnd q) (rnd (tenSignificant q)) := by
  rcases numJson_cases rnd q with ⟨z, h1, h2, h3, -⟩ | h
  · exact Or.inl ⟨z, h1, by rw [h2], h3⟩
  · exact Or.inr h

theorem IsNum.double {j : Json} {r : ℚ} (h : IsNum rnd j r) : loadDouble rnd true j = some r := by
  rcases h with ⟨z, rfl, rfl, -⟩ | rfl <;> rfl

/-- Three numbers as argument: a point or three indices with the same values. -/
theorem given_triple {a b c : Json} {x y z : ℚ} (ha : IsNum rnd a x) (hb : IsNum rnd b y) (hc : IsNum rnd c z) :
    given rnd (.list [a, b, c]) = some (.other (.point ⟨x, y, z⟩)) ∨
    ∃ v : V3 Nat, given rnd (.list [a, b, c]) = some (.vec3i v) ∧ x = rnd v.x ∧ y = rnd v.y ∧ z = rnd v.z := by
  unfold given
  cases h1 : overloads rnd false (.list [a, b, c]) with
  | none =>
    left
    rw [none_or]
    simp only [overloads, loadTriple, ha.double, hb.double, hc.double, Option.bind_some, Option.map_some, some_or]
  | some g =>
    rw [some_or]
    have nd : ∀ z : Int, loadDouble rnd false (.int z) = none := fun _ => rfl
    have fd : ∀ q : ℚ, loadDouble rnd false (.float q) = some q := fun _ => rfl
    have fi : ∀ q : ℚ, loadIndex (.float q) = none := fun _ => rfl
    have nb : ∀ l, loadBool false (.list l) = none := fun _ => rfl
    have nl : ∀ l, loadDouble rnd false (.list l) = none := fun _ => rfl
    have ni : ∀ l, loadIndex (.list l) = none := fun _ => rfl
    have ns : ∀ l, loadString (.list l) = none := fun _ => rfl
    simp only [overloads, loadTriple, nb, nl, ni, ns, Option.map_none, none_or] at h1
    rcases ha with ⟨za, rfl, rfl, la⟩ | rfl <;> rcases hb with ⟨zb, rfl, rfl, lb⟩ | rfl <;> rcases hc with ⟨zc, rfl, rfl, lc⟩ | rfl
    case inl.inl.inl =>
      right
      rw [nd, Option.bind_none, Option.map_none, none_or] at h1
      rcases loadIndex_cases za with ca | ⟨pa, ca⟩ <;> rcases loadIndex_cases zb with cb | ⟨pb, cb⟩ <;>
        rcases loadIndex_cases zc with cc | ⟨pc, cc⟩ <;>
        simp only [ca, cb, cc, Option.bind_some, Option.bind_none, Option.map_none, Option.map_some, none_or, some_or,
          reduceCtorEq] at h1
      refine ⟨_, h1.symm, ?_, ?_, ?_⟩
      · rw [show ((za.toNat : ℕ) : ℚ) = ((za.toNat : Int) : ℚ) by rw [Int.cast_natCast], Int.toNat_of_nonneg pa]
      · rw [show ((zb.toNat : ℕ) : ℚ) = ((zb.toNat : Int) : ℚ) by rw [Int.cast_natCast], Int.toNat_of_nonneg pb]
      · rw [show ((zc.toNat : ℕ) : ℚ) = ((zc.toNat : Int) : ℚ) by rw [Int.cast_natCast], Int.toNat_of_nonneg pc]
    case inr.inr.inr =>
      left
      simp only [fd, Option.bind_some, Option.map_some, some_or] at h1
      rw [h1]
    all_goals
      exfalso
      simp only [nd, fd, fi, Option.bind_some, Option.bind_none, Option.map_none, none_or, Option.bind_fun_none, reduceCtorEq] at h1
      try simp at h1

/-- Writing of a value of the right type. -/
theorem setName_other {d : DataSet ℚ} {nm : Name} {k : Key} {v : Val ℚ} (hk : d.keys.getKey nm = some k) (ht : v.ty = k.ty)
    (hlt : k.index < d.data.length) (toDouble : Int → ℚ) :
    d.setName toDouble nm (.other v) = .ok ⟨d.keys, d.data.set k.index (some v)⟩ := by
  simp only [DataSet.setName, hk, ht, if_true, DataSet.write, hlt]

/-- Reading of one value: the place of the key gets the value. -/
theorem readEntry_val {d : DataSet ℚ} {nm : Name} {k : Key} {v : Val ℚ} (hk : d.keys.getKey nm = some k) (ht : v.ty = k.ty)
    (hlt : k.index < d.data.length) (hv : ReadableVal v)
    (hm : k.ty = .method ↔ nm = "integration_method".toList) (hg : k.ty = .grid ↔ nm = "grid_type".toList)
    (subKeys subs listKeys lists) :
    readEntry rnd cond nm (valJson rnd (some v)) (.node (some d) subKeys subs listKeys lists) =
      .ok (.node (some ⟨d.keys, d.data.set k.index (some (valBack rnd v))⟩) subKeys subs listKeys lists) := by
  have hset : ∀ g, (match v with | .method _ => False | .grid _ => False | _ => True) → ∀ j, isText "Not Set.".toList j = false →
      given rnd j = some g → setJson rnd nm j (.node (some d) subKeys subs listKeys lists) =
        setValue rnd nm g (.node (some d) subKeys subs listKeys lists) := by
    intro g hv j hj hgiv
    have n1 : nm ≠ "integration_method".toList := by
      intro h; have := hm.2 h; rw [← ht] at this; cases v <;> simp_all [Val.ty]
    have n2 : nm ≠ "grid_type".toList := by
      intro h; have := hg.2 h; rw [← ht] at this; cases v <;> simp_all [Val.ty]
    unfold setJson
    rw [hj, if_neg (by simp), if_neg n1, if_neg n2, hgiv]
  cases v with
  | point v =>
    have hx := isNum_numJson (rnd := rnd) v.x
    have hlist : ∀ d g, given rnd (.list [numJson rnd v.x, numJson rnd v.y, numJson rnd v.z]) = some g →
        readEntry rnd cond nm (valJson rnd (some (.point v))) d = setValue rnd nm g d := by
      intro d g hgiv
      rcases hx with ⟨z, hz, -⟩ | hz
      · rw [hz] at hgiv
        simp only [valJson, hz, readEntry, hgiv]
      · rw [hz] at hgiv
        simp only [valJson, hz, readEntry, hgiv]
    rcases given_triple hx (isNum_numJson (rnd := rnd) v.y) (isNum_numJson (rnd := rnd) v.z) with h | ⟨n, h, e1, e2, e3⟩
    · rw [hlist _ _ h]
      simp only [setValue]
      rw [setName_other (v := .point _) hk (by exact ht) hlt]; rfl
    · rw [hlist _ _ h]
      simp only [setValue, DataSet.setName, hk]
      rw [← ht]
      simp only [Val.ty, if_true, DataSet.write, hlt, Res.bind, valBack, e1, e2, e3, Int.cast_natCast]
  | vec3i v =>
    have hg : given rnd (.list [.int v.x, .int v.y, .int v.z]) = some (.vec3i v) := by
      obtain ⟨h1, h2, h3⟩ := hv
      have nd : ∀ z : Int, loadDouble rnd false (.int z) = none := fun _ => rfl
      simp only [given, overloads, loadTriple, nd, Option.bind_none, Option.map_none, none_or, loadIndex_nat h1, loadIndex_nat h2,
        loadIndex_nat h3, Option.bind_some, Option.map_some, some_or]
    have : ∀ d, readEntry rnd cond nm (valJson rnd (some (.vec3i v))) d = setValue rnd nm (.vec3i v) d := by
      intro d; simp only [valJson, readEntry, hg]
    rw [this]
    simp only [setValue, DataSet.setName, hk]
    rw [← ht]
    simp [Val.ty, DataSet.write, hlt, Res.bind, valBack]
  | index n =>
    have hv : n < 2 ^ 64 := hv
    have hg : given rnd (.int n) = some (.int n false) := by
      simp only [given, overloads, loadTriple, loadBool, loadDouble, loadIndex_nat hv, Bool.false_eq_true, if_false,
        Option.map_none, none_or, Option.map_some, some_or]
    have : ∀ d, readEntry rnd cond nm (valJson rnd (some (.index n))) d = setJson rnd nm (.int n) d := by
      intro d; simp only [valJson, readEntry]
    rw [this, hset _ trivial _ rfl hg]
    simp only [setValue, DataSet.setName, hk]
    rw [← ht]
    simp [Val.ty, DataSet.write, hlt, Res.bind, valBack]
  | double q =>
    have hv : ¬ NegativeWhole q := hv
    rcases numJson_cases rnd q with ⟨z, h1, h2, h3, h4⟩ | h
    · have hz : 0 ≤ z := by
        by_contra hneg
        exact hv (h4 (by omega))
      have hz2 : z.toNat < 2 ^ 64 := by
        have : (10 : ℕ) ^ 10 < 2 ^ 64 := by norm_num
        omega
      have hl : loadIndex (.int z) = some z.toNat := by
        have := loadIndex_nat hz2
        rwa [Int.toNat_of_nonneg hz] at this
      have hg : given rnd (.int z) = some (.int z.toNat false) := by
        simp only [given, overloads, loadTriple, loadBool, loadDouble, hl, Bool.false_eq_true, if_false,
          Option.map_none, none_or, Option.map_some, some_or]
      have : ∀ d, readEntry rnd cond nm (valJson rnd (some (.double q))) d = setJson rnd nm (.int z) d := by
        intro d; simp only [valJson, h1, readEntry]
      rw [this, hset _ trivial _ rfl hg]
      simp only [setValue, DataSet.setName, hk]
      rw [← ht]
      simp only [Val.ty, if_true, DataSet.write, hlt, Res.bind, valBack, ← h2]
      rw [Int.toNat_of_nonneg hz]
    · have hg : given rnd (.float (rnd (tenSignificant q))) = some (.other (.double (rnd (tenSignificant q)))) := by
        simp [given, overloads, loadTriple, loadBool, loadDouble]
      have : ∀ d, readEntry rnd cond nm (valJson rnd (some (.double q))) d = setJson rnd nm (.float (rnd (tenSignificant q))) d := by
        intro d; simp only [valJson, h, readEntry]
      rw [this, hset _ trivial _ rfl hg]
      simp only [setValue]
      rw [setName_other (v := .double _) hk (by exact ht) hlt]; rfl
  | string s =>
    obtain ⟨r, h1, h2⟩ := hv
    have hg : given rnd (.str r) = some (.other (.string r)) := by
      simp [given, overloads, loadTriple, loadBool, loadDouble, loadIndex, loadString]
    have : ∀ d, readEntry rnd cond nm (valJson rnd (some (.string s))) d = setJson rnd nm (.str r) d := by
      intro d; simp only [valJson, h1, Option.getD_some, readEntry]
    rw [this, hset _ trivial (.str r) (decide_eq_false h2) hg]
    simp only [setValue]
    rw [setName_other (v := .string r) hk ht hlt, valBack, h1]; rfl
  | bool b =>
    have hg : given rnd (.bool b) = some (.other (.bool b)) := by
      simp [given, overloads, loadTriple, loadBool]
    have : ∀ d, readEntry rnd cond nm (valJson rnd (some (.bool b))) d = setJson rnd nm (.bool b) d := by
      intro d; simp only [valJson, readEntry]
    rw [this, hset _ trivial _ rfl hg]
    simp only [setValue]
    rw [setName_other hk ht hlt]; rfl
  | method m =>
    have hv : m < 6 := hv
    have hm' := hm.1 ht.symm
    have : ∀ d, readEntry rnd cond nm (valJson rnd (some (.method m))) d = setJson rnd nm (.str (methodText m)) d := by
      intro d; simp only [valJson, readEntry]
    have hn : ∀ m < 6, isText "Not Set.".toList (.str (methodText m)) = false ∧ methodOf (methodText m) = some m := by
      decide +kernel
    rw [this, setJson, (hn m hv).1, if_neg (by simp), if_pos hm', loadString, Option.bind_some, (hn m hv).2]
    simp only [setValue]
    rw [setName_other hk ht hlt]; rfl
  | grid m =>
    have hv : m < 2 := hv
    have hg' := hg.1 ht.symm
    have hm' : nm ≠ "integration_method".toList := by rw [hg']; decide +kernel
    have : ∀ d, readEntry rnd cond nm (valJson rnd (some (.grid m))) d = setJson rnd nm (.str (gridText m)) d := by
      intro d; simp only [valJson, readEntry]
    have hn : ∀ m < 2, isText "Not Set.".toList (.str (gridText m)) = false ∧ gridOf (gridText m) = some m := by
      decide +kernel
    rw [this, setJson, (hn m hv).1, if_neg (by simp), if_neg hm', if_pos hg', loadString, Option.bind_some, (hn m hv).2]
    simp only [setValue]
    rw [setName_other hk ht hlt]; rfl

theorem readEntry_unset (nm : Name) (d : Dict ℚ) : readEntry rnd cond nm (valJson rnd none) d = .ok d := by
  simp only [valJson, readEntry, setJson]
  rw [if_pos (by rfl)]

/-! ## Loops -/

theorem readMembers_append (a b : List (Name × Json)) (d : Dict ℚ) :
    readMembers rnd cond (a ++ b) d = (readMembers rnd cond a d).bind (readMembers rnd cond b) := by
  induction a generalizing d with
  | nil => rw [List.nil_append, readMembers]; rfl
  | cons e a ih =>
    rw [List.cons_append, readMembers, readMembers]
    cases readPair rnd cond e d with
    | ok x => exact ih x
    | error => rfl
    | ub => rfl

theorem readMembers_cons (e : Name × Json) (l : List (Name × Json)) (d : Dict ℚ) :
    readMembers rnd cond (e :: l) d = (readEntry rnd cond e.1 e.2 d).bind (readMembers rnd cond l) := by
  obtain ⟨a, b⟩ := e
  rw [readMembers, readPair]

/-- Values written one after the other. -/
def writeAll {α : Type _} (f : Nat → Option α) (es : List (Name × Key)) (dat : List α) : List α :=
  es.foldl (fun dat e => match f e.2.index with
    | some v => dat.set e.2.index v
    | none => dat) dat

theorem writeAll_some {α : Type _} {f : Nat → Option α} {e : Name × Key} {v : α} (h : f e.2.index = some v) (es : List (Name × Key))
    (dat : List α) : writeAll f (e :: es) dat = writeAll f es (dat.set e.2.index v) := by
  rw [writeAll, List.foldl_cons, h]; rfl

theorem writeAll_none {α : Type _} {f : Nat → Option α} {e : Name × Key} (h : f e.2.index = none) (es : List (Name × Key))
    (dat : List α) : writeAll f (e :: es) dat = writeAll f es dat := by
  rw [writeAll, List.foldl_cons, h]; rfl

theorem writeAll_length {α : Type _} (f : Nat → Option α) (es : List (Name × Key)) (dat : List α) :
    (writeAll f es dat).length = dat.length := by
  induction es generalizing dat with
  | nil => rfl
  | cons e es ih =>
    cases h : f e.2.index with
    | none => rw [writeAll_none h, ih]
    | some v => rw [writeAll_some h, ih]; simp

theorem writeAll_get {α : Type _} (f : Nat → Option α) (es : List (Name × Key)) (dat : List α) (i : Nat) (hi : i < dat.length) :
    (writeAll f es dat)[i]? = if (∃ e ∈ es, e.2.index = i) ∧ (f i).isSome then f i else dat[i]? := by
  induction es generalizing dat with
  | nil => simp [writeAll]
  | cons e es ih =>
    have tail : ∀ dat' : List α, i < dat'.length → (e.2.index = i → (f i).isSome → dat'[i]? = f i) → (e.2.index ≠ i → dat'[i]? = dat[i]?) →
        ((f i).isSome = false → dat'[i]? = dat[i]?) →
        (writeAll f es dat')[i]? = if (∃ x ∈ e :: es, x.2.index = i) ∧ (f i).isSome then f i else dat[i]? := by
      intro dat' hi' g1 g2 g3
      rw [ih dat' hi']
      by_cases h2 : (f i).isSome
      · by_cases h1 : ∃ x ∈ es, x.2.index = i
        · obtain ⟨x, hx, hx2⟩ := id h1
          rw [if_pos ⟨h1, h2⟩, if_pos ⟨⟨x, by simp [hx], hx2⟩, h2⟩]
        · rw [if_neg (fun h => h1 h.1)]
          by_cases h3 : e.2.index = i
          · rw [if_pos ⟨⟨e, by simp, h3⟩, h2⟩, g1 h3 h2]
          · rw [if_neg, g2 h3]
            rintro ⟨⟨x, hx, hx2⟩, -⟩
            rcases List.mem_cons.1 hx with rfl | hx
            · exact h3 hx2
            · exact h1 ⟨x, hx, hx2⟩
      · rw [if_neg (fun h => h2 h.2), if_neg (fun h => h2 h.2), g3 (by simpa using h2)]
    cases h : f e.2.index with
    | none =>
      rw [writeAll_none h]
      refine tail dat hi (fun h1 h2 => ?_) (fun _ => rfl) (fun _ => rfl)
      rw [← h1, h] at h2; cases h2
    | some v =>
      rw [writeAll_some h]
      refine tail _ (by simpa using hi) (fun h1 h2 => ?_) (fun h1 => ?_) (fun h1 => ?_)
      · subst h1; rw [h]; simp [hi]
      · simp [h1]
      · have h3 : e.2.index ≠ i := by rintro rfl; rw [h] at h1; cases h1
        simp [h3]

theorem keysFit_all {ks : KeySet} {n : Nat} (h : KeysFit ks n) {i : Nat} (hi : i < n) : ∃ e ∈ ks.map, e.2.index = i := by
  obtain ⟨decl, hr, rfl⟩ := h
  have hk := (registered_getKey hr decl[i].1 ⟨i, decl[i].2.1, decl[i].2.2⟩).2 (by rw [List.getElem?_eq_getElem hi])
  exact ⟨_, findKey_some hk, rfl⟩

theorem keysFit_key {ks : KeySet} {n : Nat} (h : KeysFit ks n) {e : Name × Key} (he : e ∈ ks.map) : ks.getKey e.1 = some e.2 := by
  obtain ⟨decl, hr, -⟩ := h
  exact registered_map hr he

theorem keysFit_nodup {ks : KeySet} {n : Nat} (h : KeysFit ks n) (hn : (ks.map.map (·.1)).Nodup) : (ks.map.map (·.2.index)).Nodup := by
  obtain ⟨decl, hr, -⟩ := h
  rw [List.Nodup, List.pairwise_map] at hn ⊢
  refine hn.imp_of_mem ?_
  intro a b ha hb hne he
  have h1 := (registered_getKey hr _ _).1 (registered_map hr ha)
  have h2 := (registered_getKey hr _ _).1 (registered_map hr hb)
  rw [he, h2] at h1
  exact hne (congrArg Prod.fst (Option.some.inj h1)).symm

theorem writeAll_all {α : Type _} {ks : KeySet} {dat : List α} (hfit : KeysFit ks dat.length) (f : Nat → Option α) :
    ∀ i (hi : i < dat.length), (writeAll f ks.map dat)[i]? = some ((f i).getD dat[i]) := by
  intro i hi
  rw [writeAll_get _ _ _ _ hi]
  cases hf : f i with
  | none => rw [if_neg (by simp), List.getElem?_eq_getElem hi]; rfl
  | some v => rw [if_pos ⟨keysFit_all hfit hi, rfl⟩]; rfl

theorem readData {b d : DataSet ℚ} (hfit : KeysFit d.keys d.data.length) (hof : DataOf (some b) (some d)) (hE : EnumKeys d.keys)
    (hvals : ∀ v, some v ∈ d.data → ReadableVal v) (subKeys subs listKeys lists) :
    readMembers rnd cond (dataMembers rnd (some d)) (.node (some b) subKeys subs listKeys lists) =
      .ok (.node (some ⟨d.keys, d.data.map (Option.map (valBack rnd))⟩) subKeys subs listKeys lists) := by
  obtain ⟨hk, hlen, hset, hty⟩ := hof
  let f : Nat → Option (Option (Val ℚ)) := fun i => ((d.data[i]?).getD none).map fun v => some (valBack rnd v)
  have step : ∀ (es : List (Name × Key)) (dat : List (Option (Val ℚ))), (∀ e ∈ es, e ∈ d.keys.map) → dat.length = d.data.length →
      readMembers rnd cond (es.map fun e => (e.1, valJson rnd ((d.data[e.2.index]?).getD none)))
        (.node (some ⟨d.keys, dat⟩) subKeys subs listKeys lists) =
      .ok (.node (some ⟨d.keys, writeAll f es dat⟩) subKeys subs listKeys lists) := by
    intro es
    induction es with
    | nil => intro dat _ _; rw [List.map_nil, readMembers]; rfl
    | cons e es ih =>
      intro dat hes hdat
      have he := hes e (by simp)
      rw [List.map_cons, readMembers_cons]
      have hlt := keysFit_index hfit he
      have hget : d.data[e.2.index]? = some d.data[e.2.index] := List.getElem?_eq_getElem hlt
      cases ho : d.data[e.2.index] with
      | none =>
        rw [ho] at hget
        rw [writeAll_none (by simp only [f, hget]; rfl)]
        rw [hget, Option.getD_some, readEntry_unset, Res.bind, ih dat (fun x hx => hes x (by simp [hx])) hdat]
      | some v =>
        rw [ho] at hget
        rw [writeAll_some (v := some (valBack rnd v)) (by simp only [f, hget]; rfl)]
        rw [hget, Option.getD_some]
        have := readEntry_val (rnd := rnd) (cond := cond) (d := ⟨d.keys, dat⟩) (keysFit_key hfit he) (hty e he v hget)
          (by rw [hdat]; exact hlt) (hvals v (List.mem_of_getElem? hget)) (hE e he).1 (hE e he).2 subKeys subs listKeys lists
        rw [this, Res.bind, ih _ (fun x hx => hes x (by simp [hx])) (by simpa using hdat)]
  have hb : b = ⟨d.keys, b.data⟩ := by rw [hk]
  rw [hb, dataMembers, step d.keys.map b.data (fun _ h => h) hlen.symm]
  congr 4
  apply List.ext_getElem?
  intro i
  by_cases hi : i < d.data.length
  · have hib : i < b.data.length := by omega
    rw [writeAll_all (by rw [← hlen]; exact hfit) f i hib, List.getElem?_map, List.getElem?_eq_getElem hi]
    have hfi : f i = (d.data[i]).map fun v => some (valBack rnd v) := by simp only [f, List.getElem?_eq_getElem hi]; rfl
    rw [hfi]
    cases ho : d.data[i] with
    | none =>
      cases hbi : b.data[i] with
      | none => rfl
      | some v =>
        obtain ⟨w, hw⟩ := hset i v (by rw [List.getElem?_eq_getElem hib, hbi])
        rw [List.getElem?_eq_getElem hi, ho] at hw
        cases hw
    | some v => rfl
  · rw [List.getElem?_eq_none (by rw [writeAll_length]; omega), List.getElem?_eq_none (by simp; omega)]

theorem backAll_eq (l : List (Option (Dict ℚ))) : backAll rnd l = l.map (Option.map (dictBack rnd)) := by
  induction l with
  | nil => rw [backAll]; rfl
  | cons o l ih => cases o <;> simp [backAll, ih]

theorem backLists_eq (l : List (List (Option (Dict ℚ)))) : backLists rnd l = l.map (backAll rnd) := by
  induction l with
  | nil => rw [backLists]; rfl
  | cons o l ih => simp [backLists, ih]

/-- Reading of the members of `d` into `b` gives `d` with the values read back. -/
def ReadsTo (rnd : ℚ → ℚ) (cond b d : Dict ℚ) : Prop := readMembers rnd cond (dictMembers rnd d) b = .ok (dictBack rnd d)

theorem readSubs {ks : KeySet} {bsubs subs : List (Option (Dict ℚ))} (hfit : KeysFit ks subs.length)
    (hn : (ks.map.map (·.1)).Nodup) (hlen : bsubs.length = subs.length) (hb : none ∉ bsubs) (hs : none ∉ subs)
    (hsub : ∀ (i : Nat) b d, bsubs[i]? = some (some b) → subs[i]? = some (some d) → ReadsTo rnd cond b d)
    (data listKeys lists) :
    readMembers rnd cond (subMembers (allMembers rnd subs) (some ks)) (.node data (some ks) bsubs listKeys lists) =
      .ok (.node data (some ks) (backAll rnd subs) listKeys lists) := by
  let f : Nat → Option (Option (Dict ℚ)) := fun i => (subs[i]?).map (Option.map (dictBack rnd))
  have step : ∀ (es : List (Name × Key)) (cur : List (Option (Dict ℚ))), (∀ e ∈ es, e ∈ ks.map) → (es.map (·.2.index)).Nodup →
      (∀ e ∈ es, cur[e.2.index]? = bsubs[e.2.index]?) →
      readMembers rnd cond (es.map fun e => (e.1, .obj (((allMembers rnd subs)[e.2.index]?).getD [])))
        (.node data (some ks) cur listKeys lists) = .ok (.node data (some ks) (writeAll f es cur) listKeys lists) := by
    intro es
    induction es with
    | nil => intro cur _ _ _; rw [List.map_nil, readMembers]; rfl
    | cons e es ih =>
      intro cur hes hnd hcur
      have he := hes e (by simp)
      have hlt := keysFit_index hfit he
      rw [List.map_cons, List.nodup_cons] at hnd
      obtain ⟨o, ho⟩ : ∃ o, subs[e.2.index]? = some o := ⟨_, List.getElem?_eq_getElem hlt⟩
      obtain ⟨o', ho'⟩ : ∃ o, bsubs[e.2.index]? = some o := ⟨_, List.getElem?_eq_getElem (by omega)⟩
      cases o with
      | none => exact absurd (List.mem_of_getElem? ho) hs
      | some d =>
        cases o' with
        | none => exact absurd (List.mem_of_getElem? ho') hb
        | some b =>
          have hr := hsub _ _ _ ho' ho
          rw [writeAll_some (v := some (dictBack rnd d)) (by simp only [f, ho]; rfl)]
          rw [List.map_cons, readMembers_cons]
          have e1 : ((allMembers rnd subs)[e.2.index]?).getD [] = dictMembers rnd d := by
            rw [allMembers_eq, List.getElem?_map, ho]; rfl
          have e2 : readEntry rnd cond e.1 (.obj (dictMembers rnd d)) (.node data (some ks) cur listKeys lists) =
              .ok (.node data (some ks) (cur.set e.2.index (some (dictBack rnd d))) listKeys lists) := by
            rw [readEntry]
            simp only [onSub, keysFit_key hfit he, hcur e (by simp), ho']
            rw [hr]; rfl
          simp only [e1]
          rw [e2, Res.bind]
          refine ih _ (fun x hx => hes x (by simp [hx])) hnd.2 ?_
          intro x hx
          have hne : e.2.index ≠ x.2.index := fun h => hnd.1 (by rw [h]; exact List.mem_map_of_mem hx)
          rw [List.getElem?_set_ne hne]
          exact hcur x (by simp [hx])
  rw [subMembers, step ks.map bsubs (fun _ h => h) (keysFit_nodup hfit hn) (fun _ _ => rfl)]
  congr 2
  rw [backAll_eq]
  apply List.ext_getElem?
  intro i
  by_cases hi : i < subs.length
  · rw [writeAll_all (by rw [hlen]; exact hfit) f i (by omega), List.getElem?_map]
    simp only [f, List.getElem?_eq_getElem hi]; rfl
  · rw [List.getElem?_eq_none (by rw [writeAll_length]; omega), List.getElem?_eq_none (by simp; omega)]

theorem readList_eq {l : List (Option (Dict ℚ))} (hnull : none ∉ l) (hl : ∀ d, some d ∈ l → ReadsTo rnd cond cond d) :
    ∃ r, readList rnd cond ((allMembers rnd l).map .obj) = .ok r ∧ r.map some = backAll rnd l := by
  induction l with
  | nil => exact ⟨[], by simp [allMembers, readList], by simp [backAll]⟩
  | cons o l ih =>
    cases o with
    | none => simp at hnull
    | some d =>
      obtain ⟨r, h1, h2⟩ := ih (fun h => hnull (by simp [h])) (fun d hd => hl d (by simp [hd]))
      refine ⟨dictBack rnd d :: r, ?_, by simp [backAll, h2]⟩
      rw [allMembers, List.map_cons, readList, hl d (by simp), Res.bind, h1, Res.bind]

theorem readLists {ks : KeySet} {lists : List (List (Option (Dict ℚ)))} (hfit : KeysFit ks lists.length)
    (hn : (ks.map.map (·.1)).Nodup) (hne : [] ∉ lists) (hnull : ∀ l, l ∈ lists → none ∉ l)
    (hlist : ∀ l, l ∈ lists → ∀ d, some d ∈ l → ReadsTo rnd cond cond d)
    (data subKeys subs) :
    readMembers rnd cond (listMembers (allLists rnd lists) (some ks)) (.node data subKeys subs (some ks) (lists.map fun _ => [])) =
      .ok (.node data subKeys subs (some ks) (backLists rnd lists)) := by
  let f : Nat → Option (List (Option (Dict ℚ))) := fun i => (lists[i]?).map (backAll rnd)
  have step : ∀ (es : List (Name × Key)) (cur : List (List (Option (Dict ℚ)))), (∀ e ∈ es, e ∈ ks.map) → (es.map (·.2.index)).Nodup →
      (∀ e ∈ es, cur[e.2.index]? = some []) →
      readMembers rnd cond (es.map fun e => (e.1, .list ((((allLists rnd lists)[e.2.index]?).getD []).map .obj)))
        (.node data subKeys subs (some ks) cur) = .ok (.node data subKeys subs (some ks) (writeAll f es cur)) := by
    intro es
    induction es with
    | nil => intro cur _ _ _; rw [List.map_nil, readMembers]; rfl
    | cons e es ih =>
      intro cur hes hnd hcur
      have he := hes e (by simp)
      have hlt := keysFit_index hfit he
      rw [List.map_cons, List.nodup_cons] at hnd
      obtain ⟨l, ho⟩ : ∃ o, lists[e.2.index]? = some o := ⟨_, List.getElem?_eq_getElem hlt⟩
      have hmem := List.mem_of_getElem? ho
      rw [writeAll_some (v := backAll rnd l) (by simp only [f, ho]; rfl)]
      rw [List.map_cons, readMembers_cons]
      have e1 : ((allLists rnd lists)[e.2.index]?).getD [] = allMembers rnd l := by
        rw [allLists_eq, List.getElem?_map, ho]; rfl
      have e2 : readEntry rnd cond e.1 (.list ((allMembers rnd l).map .obj)) (.node data subKeys subs (some ks) cur) =
          .ok (.node data subKeys subs (some ks) (cur.set e.2.index (backAll rnd l))) := by
        obtain ⟨r, h1, h2⟩ := readList_eq (hnull l hmem) (hlist l hmem)
        cases l with
        | nil => exact absurd hmem hne
        | cons o l =>
          cases o with
          | none => exact absurd (List.mem_cons_self ..) (hnull _ hmem)
          | some d =>
            rw [allMembers, List.map_cons, readList] at h1
            rw [allMembers, List.map_cons, readEntry, h1]
            simp only [onList, keysFit_key hfit he, hcur e (by simp), Res.bind, h2, List.nil_append]
      simp only [e1]
      rw [e2, Res.bind]
      refine ih _ (fun x hx => hes x (by simp [hx])) hnd.2 ?_
      intro x hx
      have hne : e.2.index ≠ x.2.index := fun h => hnd.1 (by rw [h]; exact List.mem_map_of_mem hx)
      rw [List.getElem?_set_ne hne]
      exact hcur x (by simp [hx])
  rw [listMembers, step ks.map _ (fun _ h => h) (keysFit_nodup hfit hn) (fun e he => by
    rw [List.getElem?_map, List.getElem?_eq_getElem (keysFit_index hfit he)]; rfl)]
  congr 2
  rw [backLists_eq]
  apply List.ext_getElem?
  intro i
  by_cases hi : i < lists.length
  · rw [writeAll_all (by simpa using hfit) f i (by simpa using hi), List.getElem?_map]
    simp only [f, List.getElem?_eq_getElem hi]; rfl
  · rw [List.getElem?_eq_none (by rw [writeAll_length]; simp; omega), List.getElem?_eq_none (by simp; omega)]

/-- Reading what was written. -/
theorem reads {b d : Dict ℚ} (h : SettingsOf cond b d) (hw : Writable d) (he : EnumDict d) (hr : Readable d) : ReadsTo rnd cond b d := by
  induction h with
  | @node bdata data subKeys bsubs subs listKeys blists lists hdata hlen hb hs hsub hempty hnull hlist ihs ihl =>
    obtain ⟨wd, ws, wl, ws0, wl0, wnames, -, -, wsub, -, wlist⟩ := hw
    obtain ⟨rvals, rne, rsub, rlist⟩ := hr
    obtain ⟨rkeys, esub, elist⟩ := he
    unfold ReadsTo
    have hnd : ((data.map (·.keys.map)).getD [] ++ (subKeys.map (·.map)).getD [] ++ (listKeys.map (·.map)).getD []).map (·.1) |>.Nodup := wnames
    rw [List.map_append, List.map_append, List.nodup_append, List.nodup_append] at hnd
    rw [dictMembers, readMembers_append, readMembers_append]
    have e1 : readMembers rnd cond (dataMembers rnd data) (.node bdata subKeys bsubs listKeys blists) =
        .ok (.node (data.map fun d => ⟨d.keys, d.data.map (Option.map (valBack rnd))⟩) subKeys bsubs listKeys blists) := by
      cases data with
      | none =>
        cases bdata with
        | none => rw [dataMembers, readMembers]; rfl
        | some x => exact absurd hdata (by simp [DataOf])
      | some d =>
        cases bdata with
        | none => exact absurd hdata (by simp [DataOf])
        | some x => exact readData (wd d rfl) hdata (rkeys d rfl) (rvals d rfl) _ _ _ _
    rw [e1, Res.bind]
    have e2 : ∀ data', readMembers rnd cond (subMembers (allMembers rnd subs) subKeys) (.node data' subKeys bsubs listKeys blists) =
        .ok (.node data' subKeys (backAll rnd subs) listKeys blists) := by
      intro data'
      cases subKeys with
      | none =>
        have : subs = [] := ws0 rfl
        subst this
        have : bsubs = [] := List.length_eq_zero_iff.1 hlen
        subst this
        rw [subMembers, readMembers, backAll]
      | some ks =>
        refine readSubs (ws ks rfl) hnd.1.2.1 hlen hb hs ?_ _ _ _
        intro i b d h1 h2
        exact ihs i b d h1 h2 (wsub d (List.mem_of_getElem? h2)) (esub d (List.mem_of_getElem? h2)) (rsub d (List.mem_of_getElem? h2))
    rw [e2, Res.bind]
    rw [dictBack]
    cases listKeys with
    | none =>
      have : lists = [] := wl0 rfl
      subst this
      subst hempty
      rw [listMembers, readMembers, backLists]; rfl
    | some ks =>
      subst hempty
      exact readLists (wl ks rfl) hnd.2.1 rne hnull
        (fun l hl d hd => ihl l hl d hd (wlist l hl d hd) (elist l hl d hd) (rlist l hl d hd)) _ _ _

end QuESo.Json
