import Verif.Proofs.Settings

/-!
# Properties C41, C42, C43, C45: settings containers

`Registered decl ks`: `ks` is the run-time key set of a declaration `decl` (names, types, requirements).
-/
namespace QuESo.Props
open QuESo.Settings QuESo.Spec
variable {R : Type _}

/-! ## Key sets of the code used in the examples -/

/-- `TrimmedQuadratureRuleSettings`, register_keys.hpp L96-109, shortened to three keys. -/
def exampleDecl : Decl :=
  [("moment_fitting_residual".toList, .double, true),
   ("min_num_boundary_triangles".toList, .index, true),
   ("activate_fictitious_domain_with_alpha".toList, .double, false)]

/-- The registered key set. -/
def exampleKeys : KeySet :=
  ⟨exampleDecl.map (·.1),
   [("moment_fitting_residual".toList, ⟨0, .double, true⟩),
    ("min_num_boundary_triangles".toList, ⟨1, .index, true⟩),
    ("activate_fictitious_domain_with_alpha".toList, ⟨2, .double, false⟩)]⟩

theorem example_registered : Registered exampleDecl exampleKeys := by
  refine ⟨by decide +kernel, [⟨0, .double, true⟩, ⟨1, .index, true⟩, ⟨2, .double, false⟩], ?_, by decide +kernel⟩
  intro k hk
  simp only [List.mem_cons, List.not_mem_nil, or_false] at hk
  rcases hk with rfl | rfl | rfl
  · exact ⟨_, rfl⟩
  · exact ⟨_, rfl⟩
  · exact ⟨_, rfl⟩

/-- A conditions-like declaration with keys that hold dictionaries. -/
def subDecl : Decl := [("general_settings".toList, .bool, true)]
def subKeySet : KeySet := ⟨["general_settings".toList], [("general_settings".toList, ⟨0, .bool, true⟩)]⟩
theorem sub_registered : Registered subDecl subKeySet := by
  refine ⟨by decide +kernel, [⟨0, .bool, true⟩], ?_, by decide +kernel⟩
  intro k hk
  rw [List.mem_singleton] at hk
  subst hk
  exact ⟨_, rfl⟩

/-! ## C41 Typed maps -/

/-- After every sequence of calls on a new data set, reading a key gives the last value that was successfully set for
its name, through every reading function, with the declared type; `lastSet` looks at calls on that name only, so
other keys have no influence. -/
theorem C41_last_value {decl : Decl} {ks : KeySet} (h : Registered decl ks) (toDouble : Int → R) (ops : List (Op R))
    (ho : ∀ o ∈ ops, Compiles decl o) {i : Nat} {nm : Name} {t : Ty} {r : Bool} (hi : decl[i]? = some (nm, t, r)) :
    let d := (DataSet.new ks).run toDouble ops
    d.tryGet ⟨i, t, r⟩ = .ok (lastSet toDouble decl ops nm) ∧
    d.isSet ⟨i, t, r⟩ = .ok (lastSet toDouble decl ops nm).isSome ∧
    d.isSetName nm = .ok (lastSet toDouble decl ops nm).isSome ∧
    (∀ v, d.getRequired ⟨i, t, r⟩ = .ok v ↔ lastSet toDouble decl ops nm = some v) ∧
    (∀ v, d.getName t nm = .ok v ↔ lastSet toDouble decl ops nm = some v) ∧
    (∀ t', t' ≠ t → d.getName t' nm = .error) ∧
    (lastSet toDouble decl ops nm = none → d.getRequired ⟨i, t, r⟩ = .error ∧ d.getName t nm = .error) ∧
    (∀ v, lastSet toDouble decl ops nm = some v → v.ty = t) := by
  intro d
  obtain ⟨e1, e2⟩ := holds_run h toDouble ops ho
  have hd : d.data[i]? = some (lastSet toDouble decl ops nm) := by
    change ((DataSet.new ks).run toDouble ops).data[i]? = _
    rw [e2]; simp [hi]
  have hk : d.keys.getKey nm = some ⟨i, t, r⟩ := by
    change ((DataSet.new ks).run toDouble ops).keys.getKey nm = _
    rw [e1]; exact (registered_getKey h nm ⟨i, t, r⟩).2 hi
  have hty : ∀ v, lastSet toDouble decl ops nm = some v → v.ty = t := fun v hv => lastSet_ty h toDouble ops ho hi hv
  unfold DataSet.tryGet DataSet.isSetName DataSet.isSet DataSet.getRequired DataSet.getName
  simp only [hk, hd]
  cases hL : lastSet toDouble decl ops nm with
  | none => simp [getAs]
  | some v =>
    have := hty v hL
    simp only [getAs, this, if_true, Option.isSome_some, true_and, Res.ok.injEq, Option.some.injEq, reduceCtorEq,
      false_imp_iff, implies_true, forall_eq', and_true]
    intro t' ht'
    rw [if_neg (fun hh => ht' hh.symm)]

/-- A call through the string interface never has undefined behaviour; it is refused exactly if the name is unknown
or the argument does not suit the type of the key, and then the object is unchanged; otherwise it succeeds. -/
theorem C41_refused_iff {decl : Decl} {ks : KeySet} (h : Registered decl ks) (toDouble : Int → R) (ops : List (Op R))
    (ho : ∀ o ∈ ops, Compiles decl o) (nm : Name) (g : Given R) (hg : Compiles decl (.setName nm g)) :
    let d := (DataSet.new ks).run toDouble ops
    d.setName toDouble nm g ≠ .ub ∧
    (d.setName toDouble nm g = .error ↔ ∀ t, declType decl nm = some t → coerce toDouble t g = none) ∧
    (d.setName toDouble nm g = .error → d.step toDouble (.setName nm g) = d) ∧
    (d.has nm = true ↔ nm ∈ decl.map (·.1)) := by
  intro d
  obtain ⟨e1, e2⟩ := holds_run h toDouble ops ho
  have e1' : d.keys = ks := e1
  have hlen : d.data.length = decl.length := by
    change ((DataSet.new ks).run toDouble ops).data.length = _
    rw [e2]; simp
  have hS := setName_eq toDouble (e1'.symm ▸ h) hlen nm g hg
  refine ⟨?_, ?_, ?_, ?_⟩
  · rw [hS]
    split <;> simp
  · rw [hS, declType_eq h, e1']
    cases hk : ks.getKey nm with
    | none => simp
    | some k =>
      cases hc : coerce toDouble k.ty g <;> simp [hc]
  · intro he
    simp only [DataSet.step, he]
  · simp only [DataSet.has, e1']
    constructor
    · intro hs
      obtain ⟨k, hk⟩ := Option.isSome_iff_exists.1 hs
      exact List.mem_map.2 ⟨_, List.mem_of_getElem? ((registered_getKey h nm k).1 hk), rfl⟩
    · intro hm
      obtain ⟨e, he, rfl⟩ := List.mem_map.1 hm
      obtain ⟨i, hi⟩ := List.mem_iff_getElem?.1 he
      rw [(registered_getKey h e.1 ⟨i, e.2.1, e.2.2⟩).2 hi]
      rfl

/-- A history with refused calls: the residual is set to 3 (an integer), a negative number of triangles is refused,
an unknown name is refused, the residual is set again through its key. -/
def exampleOps : List (Op Int) :=
  [.setName "moment_fitting_residual".toList (.int 3 true), .setName "min_num_boundary_triangles".toList (.int (-2) true),
   .setName "unknown".toList (.other (.bool true)), .setKey ⟨0, .double, true⟩ (.double 7)]
example : ∀ o ∈ exampleOps, Compiles exampleDecl o := by
  intro o ho
  simp only [exampleOps, List.mem_cons, List.not_mem_nil, or_false] at ho
  rcases ho with rfl | rfl | rfl | rfl
  · exact Or.inl rfl
  · exact Or.inl rfl
  · exact ⟨by decide, by decide⟩
  · exact ⟨rfl, _, rfl⟩
example : lastSet id exampleDecl exampleOps "moment_fitting_residual".toList = some (.double 7) ∧
    lastSet id exampleDecl exampleOps "min_num_boundary_triangles".toList = none := by decide +kernel
example : ((DataSet.new exampleKeys).run id exampleOps).getName .double "moment_fitting_residual".toList = .ok (.double 7) := by
  decide +kernel

/-! ## C42 Integers -/

/-- Setting an integer by name and reading it back: a real-valued key gives the converted number, an index key gives
the number itself if it is not negative; a negative number for an index key, a key of any other type and an unknown
name are refused. -/
theorem C42_integer {decl : Decl} {ks : KeySet} (h : Registered decl ks) (toDouble : Int → R) (ops : List (Op R))
    (ho : ∀ o ∈ ops, Compiles decl o) (nm : Name) (v : Int) (signed : Bool) (hv : signed = true ∨ 0 ≤ v) :
    let d := (DataSet.new ks).run toDouble ops
    let d' := d.step toDouble (.setName nm (.int v signed))
    (declType decl nm = some .double → d'.getName .double nm = .ok (.double (toDouble v))) ∧
    (declType decl nm = some .index → 0 ≤ v → ∃ m : Nat, (m : Int) = v ∧ d'.getName .index nm = .ok (.index m)) ∧
    (declType decl nm = some .index → v < 0 → d.setName toDouble nm (.int v signed) = .error ∧ d' = d) ∧
    (declType decl nm ≠ some .double → declType decl nm ≠ some .index →
      d.setName toDouble nm (.int v signed) = .error ∧ d' = d) := by
  intro d d'
  have hc : Compiles decl (Op.setName nm (.int v signed) : Op R) := hv
  have hrun : d' = (DataSet.new ks).run toDouble (ops ++ [.setName nm (.int v signed)]) := by
    simp only [d', d, DataSet.run, List.foldl_append, List.foldl_cons, List.foldl_nil]
  have ho' : ∀ o ∈ ops ++ [.setName nm (.int v signed)], Compiles decl o := by
    intro o hm
    rcases List.mem_append.1 hm with hm | hm
    · exact ho o hm
    · rw [List.mem_singleton] at hm; subst hm; exact hc
  have hread : ∀ t w, declType decl nm = some t → coerce toDouble t (.int v signed) = some w →
      d'.getName t nm = .ok w := by
    intro t w ht hw
    have ht' := ht
    rw [declType_eq h] at ht'
    cases hk : ks.getKey nm with
    | none => rw [hk] at ht'; cases ht'
    | some k =>
      rw [hk] at ht'
      have hi := (registered_getKey h nm k).1 hk
      have := (C41_last_value h toDouble _ ho' hi).2.2.2.2.1 w
      rw [hrun]
      simp only [Option.map_some, Option.some.injEq] at ht'
      rw [← ht']
      refine this.2 ?_
      rw [lastSet_snoc]
      simp [effect, ht, hw]
  obtain ⟨_, r2, r3, _⟩ := C41_refused_iff h toDouble ops ho nm _ hc
  refine ⟨fun ht => hread _ _ ht rfl, fun ht h0 => ⟨v.toNat, Int.toNat_of_nonneg h0, hread _ _ ht (by simp [coerce, h0])⟩, ?_, ?_⟩
  · intro ht h0
    have := r2.2 (by
      intro t ht2
      rw [ht] at ht2
      obtain rfl := Option.some.inj ht2
      simp only [coerce]
      rw [if_neg (by omega)])
    exact ⟨this, r3 this⟩
  · intro h1 h2
    have := r2.2 (by
      intro t ht2
      cases t <;> first | rfl | exact absurd ht2 h1 | exact absurd ht2 h2)
    exact ⟨this, r3 this⟩

example : declType exampleDecl "min_num_boundary_triangles".toList = some .index ∧
    declType exampleDecl "moment_fitting_residual".toList = some .double := by decide +kernel
example : (((DataSet.new exampleKeys : DataSet Int).step id (.setName "min_num_boundary_triangles".toList (.int 25 true))).getName
    .index "min_num_boundary_triangles".toList) = .ok (.index 25) := by decide +kernel

/-! ## C43 Required values -/

/-- For every dictionary tree with one place per key at every node (the constructor makes these), the check succeeds
exactly if nothing required is missing anywhere in the tree, and it never has undefined behaviour. -/
theorem C43_check_complete {d : Dict R} (h : WellFormed d) :
    d.checkRequired ≠ .ub ∧ (d.checkRequired = .ok () ↔ ¬ Missing d) := dict_check h

/-- Values are optional unless declared as required: with all required values set the check of a data set
succeeds. -/
theorem C43_data_set {decl : Decl} {ks : KeySet} (h : Registered decl ks) (toDouble : Int → R) (ops : List (Op R))
    (ho : ∀ o ∈ ops, Compiles decl o) :
    ((DataSet.new ks).run toDouble ops).checkRequired = .ok () ↔
      ∀ nm t, (nm, t, true) ∈ decl → lastSet toDouble decl ops nm ≠ none := by
  obtain ⟨e1, e2⟩ := holds_run h toDouble ops ho
  have hlen : ((DataSet.new ks).run toDouble ops).data.length = decl.length := by rw [e2]; simp
  rw [(data_check (e1.symm ▸ h) hlen).2, e1]
  constructor
  · intro hno nm t hm hn
    obtain ⟨i, hi⟩ := List.mem_iff_getElem?.1 hm
    refine hno ⟨nm, ⟨i, t, true⟩, (registered_getKey h nm ⟨i, t, true⟩).2 hi, rfl, ?_⟩
    rw [(C41_last_value h toDouble ops ho hi).2.2.1, hn]
    rfl
  · rintro hall ⟨nm, k, hk, hr, hu⟩
    have hi := (registered_getKey h nm k).1 hk
    rw [(C41_last_value h toDouble ops ho hi).2.2.1] at hu
    rw [hr] at hi
    have := hall nm k.ty (List.mem_of_getElem? hi)
    cases hL : lastSet toDouble decl ops nm with
    | none => exact this hL
    | some v => rw [hL] at hu; cases hu

/-- A tree of depth two: a sub dictionary with a data set, and one entry in a list. -/
def exampleTree (inner entry : DataSet Int) : Dict Int :=
  .node none (some subKeySet) [some (.node (some inner) none [] none [])] (some subKeySet)
    [[some (.node (some entry) none [] none [])]]
example (inner entry : DataSet Int) (h1 : inner.keys = exampleKeys) (h1' : inner.data.length = 3) (h2 : entry.keys = exampleKeys)
    (h2' : entry.data.length = 3) : WellFormed (exampleTree inner entry) := by
  refine .node (fun d e => by cases e) (fun ks e => ?_) (fun ks e => ?_) (fun d hd => ?_) (fun l hl d hd => ?_)
  · obtain rfl := Option.some.inj e; exact ⟨_, sub_registered, rfl⟩
  · obtain rfl := Option.some.inj e; exact ⟨_, sub_registered, rfl⟩
  · rw [List.mem_singleton] at hd
    obtain rfl := Option.some.inj hd
    refine .node (fun d e => ?_) (fun ks e => by cases e) (fun ks e => by cases e) (fun d hd => by cases hd) (fun l hl => by cases hl)
    obtain rfl := Option.some.inj e
    rw [h1]; exact ⟨_, example_registered, h1'.symm⟩
  · rw [List.mem_singleton] at hl
    subst hl
    rw [List.mem_singleton] at hd
    obtain rfl := Option.some.inj hd
    refine .node (fun d e => ?_) (fun ks e => by cases e) (fun ks e => by cases e) (fun d hd => by cases hd) (fun l hl => by cases hl)
    obtain rfl := Option.some.inj e
    rw [h2]; exact ⟨_, example_registered, h2'.symm⟩
/-- Complete: accepted although an optional value is not set. -/
example : (exampleTree ⟨exampleKeys, [some (.double 1), some (.index 2), none]⟩
    ⟨exampleKeys, [some (.double 1), some (.index 2), none]⟩).checkRequired = .ok () := by
  simp [exampleTree, Dict.checkRequired, visitAll, visitLists, checkData, checkSubs, checkLists, checkEntries, seqAll,
    DataSet.checkRequired, exampleKeys, subKeySet, Res.andThen]
/-- A required value of the list entry is not set: refused. -/
example : (exampleTree ⟨exampleKeys, [some (.double 1), some (.index 2), none]⟩
    ⟨exampleKeys, [some (.double 1), none, none]⟩).checkRequired = .error := by
  simp [exampleTree, Dict.checkRequired, visitAll, visitLists, checkData, checkSubs, checkLists, checkEntries, seqAll,
    DataSet.checkRequired, exampleKeys, subKeySet, Res.andThen]

/-! ## C45 Key names -/

/-- One entry per item, for every text. -/
theorem C45_count (s : Name) : (keyNames s).length = s.count ',' + 1 ∧ numberOfItems s = s.count ',' + 1 := by
  have : numberOfItems s = s.count ',' + 1 := by unfold numberOfItems; rw [numberOfItems_acc]; omega
  exact ⟨(keyNames_length s).trans this, this⟩

/-- For every list of identifiers, each with any number of blanks in front and separated by commas, the names found
in the text are exactly these identifiers in order.  Partial: a blank after a name is not covered, see
`C45_false_of_code`. -/
theorem C45_names_partial (items : List (Name × Name)) (hne : items ≠ [])
    (h : ∀ e ∈ items, (∀ c ∈ e.1, Blank c) ∧ PlainName e.2) : keyNames (declText items) = items.map (·.2) :=
  split_decl (declText items) items hne h [] rfl

/-- Looking up the name of a key gives the key, and the key found for a name has this name; exactly the declared
names are found. -/
theorem C45_lookup_inverse {decl : Decl} {ks : KeySet} (h : Registered decl ks) :
    (∀ i nm t r, decl[i]? = some (nm, t, r) →
      (⟨i, t, r⟩ : Key).name ks.names = some nm ∧ ks.getKey nm = some ⟨i, t, r⟩) ∧
    (∀ nm k, ks.getKey nm = some k → k.name ks.names = some nm) ∧
    (∀ nm, (ks.getKey nm).isSome = true ↔ nm ∈ decl.map (·.1)) := by
  refine ⟨fun i nm t r hi => ⟨?_, (registered_getKey h nm ⟨i, t, r⟩).2 hi⟩, fun nm k hk => ?_, fun nm => ?_⟩
  · rw [Key.name, registered_names h]; simp [hi]
  · rw [Key.name, registered_names h]; simp [(registered_getKey h nm k).1 hk]
  · constructor
    · intro hs
      obtain ⟨k, hk⟩ := Option.isSome_iff_exists.1 hs
      exact List.mem_map.2 ⟨_, List.mem_of_getElem? ((registered_getKey h nm k).1 hk), rfl⟩
    · intro hm
      obtain ⟨e, he, rfl⟩ := List.mem_map.1 hm
      obtain ⟨i, hi⟩ := List.mem_iff_getElem?.1 he
      rw [(registered_getKey h e.1 ⟨i, e.2.1, e.2.2⟩).2 hi]
      rfl

/-- The declaration of `GeneralSettings`, register_keys.hpp L60-61. -/
example : keyNames "input_filename, output_directory_name, echo_level, write_output_to_file".toList =
    ["input_filename".toList, "output_directory_name".toList, "echo_level".toList, "write_output_to_file".toList] := by
  decide +kernel
example : declText [([], "grid_type".toList), ([' ', '\t'], "value".toList)] = "grid_type, \tvalue".toList := by decide +kernel
example : PlainName "grid_type".toList := by
  refine ⟨by decide, fun c hc => ?_⟩
  simp only [List.mem_cons, String.toList] at hc
  unfold Blank
  have : ∀ c ∈ ("grid_type".toList), c ≠ ',' ∧ ¬ (c = ' ' ∨ c = '\t') := by decide +kernel
  exact this c hc

/-- 'Each entry is the key name without separators and blanks' needs the blanks to be in front of a name: a blank
after a name removes the name, and the key set is still accepted at start-up under the empty name. -/
theorem C45_false_of_code : keyNames "value , modulus".toList = [[], "modulus".toList] ∧
    (initMap (keyNames "value , modulus".toList) [⟨0, .double, true⟩, ⟨1, .double, true⟩]).isSome = true ∧
    ((initMap (keyNames "value , modulus".toList) [⟨0, .double, true⟩, ⟨1, .double, true⟩]).bind
      (fun ks => ks.getKey "value".toList)) = none := by decide +kernel

end QuESo.Props
