import Verif.Spec.Settings
import Mathlib.Data.List.Nodup
import Mathlib.Data.List.Induction
import Mathlib.Tactic.Linarith

/-! # Proofs about the settings containers -/
namespace QuESo.Settings
open QuESo.Spec

/-! ## Names -/

theorem numberOfItems_acc (s : Name) (a : Nat) :
    s.foldl (fun count c => if c = ',' then count + 1 else count) a = a + s.count ',' := by
  induction s generalizing a with
  | nil => simp
  | cons c s ih =>
    simp only [List.foldl_cons]
    rw [ih]
    by_cases h : c = ','
    · subst h; simp; omega
    · rw [if_neg h, List.count_cons_of_ne (by simpa using h)]

theorem splitLoop_length (s : Name) (start i : Nat) (rest : List Char) :
    (splitLoop s start i rest).length = rest.count ',' + 1 := by
  induction rest generalizing start i with
  | nil => rfl
  | cons c rest ih =>
    unfold splitLoop
    by_cases h1 : c = ' ' ∨ c = '\t'
    · rw [if_pos h1, ih, List.count_cons_of_ne]
      rcases h1 with rfl | rfl <;> decide
    · rw [if_neg h1]
      by_cases h2 : c = ','
      · subst h2
        simp [ih]
      · rw [if_neg h2, ih, List.count_cons_of_ne (by simpa using h2)]

theorem keyNames_length (s : Name) : (keyNames s).length = numberOfItems s := by
  unfold keyNames numberOfItems
  rw [splitLoop_length, numberOfItems_acc]
  omega

theorem split_blanks (s b : Name) (hb : ∀ c ∈ b, Blank c) (i : Nat) (rest : List Char) :
    splitLoop s i i (b ++ rest) = splitLoop s (i + b.length) (i + b.length) rest := by
  induction b generalizing i with
  | nil => rfl
  | cons c b ih =>
    have hc : c = ' ' ∨ c = '\t' := hb c (by simp)
    rw [List.cons_append, splitLoop, if_pos hc, ih (fun c' h => hb c' (List.mem_cons_of_mem _ h))]
    simp only [List.length_cons]
    rw [show i + 1 + b.length = i + (b.length + 1) by omega]

theorem split_name (s nm : Name) (hn : ∀ c ∈ nm, c ≠ ',' ∧ ¬ Blank c) (start i : Nat) (rest : List Char) :
    splitLoop s start i (nm ++ rest) = splitLoop s start (i + nm.length) rest := by
  induction nm generalizing i with
  | nil => rfl
  | cons c nm ih =>
    obtain ⟨h1, h2⟩ := hn c (by simp)
    have h2' : ¬ (c = ' ' ∨ c = '\t') := h2
    rw [List.cons_append, splitLoop, if_neg h2', if_neg h1, ih (fun c' h => hn c' (List.mem_cons_of_mem _ h))]
    simp only [List.length_cons]
    rw [show i + 1 + nm.length = i + (nm.length + 1) by omega]

theorem substr_mid (pre nm post : Name) : substr (pre ++ (nm ++ post)) pre.length (pre.length + nm.length) = nm := by
  unfold substr
  rw [List.drop_left, Nat.add_sub_cancel_left, List.take_left]

theorem split_decl (s : Name) (items : List (Name × Name)) (hne : items ≠ [])
    (hb : ∀ e ∈ items, (∀ c ∈ e.1, Blank c) ∧ PlainName e.2) (pre : Name) (hs : s = pre ++ declText items) :
    splitLoop s pre.length pre.length (declText items) = items.map (·.2) := by
  induction items generalizing pre with
  | nil => exact absurd rfl hne
  | cons e rest ih =>
    obtain ⟨b, nm⟩ := e
    obtain ⟨h1, h2⟩ := hb (b, nm) (by simp)
    cases rest with
    | nil =>
      simp only [declText] at hs ⊢
      rw [split_blanks s b h1, ← List.append_nil nm, split_name s nm h2.2]
      simp only [splitLoop, List.map_cons, List.map_nil, List.append_nil]
      have : substr s (pre.length + b.length) (pre.length + b.length + nm.length) = nm := by
        rw [hs, ← List.append_assoc, ← List.length_append]
        have := substr_mid (pre ++ b) nm []
        simpa only [List.append_nil] using this
      rw [this]
    | cons e' rest' =>
      have ht : declText ((b, nm) :: e' :: rest') = b ++ (nm ++ ',' :: declText (e' :: rest')) := by
        simp [declText]
      rw [ht] at hs ⊢
      rw [split_blanks s b h1, split_name s nm h2.2, splitLoop, if_neg (by decide), if_pos rfl]
      have hsub : substr s (pre.length + b.length) (pre.length + b.length + nm.length) = nm := by
        rw [hs, ← List.append_assoc, ← List.length_append]
        exact substr_mid _ _ _
      rw [hsub]
      have := ih (by simp) (fun e h => hb e (List.mem_cons_of_mem _ h)) (pre ++ b ++ nm ++ [',']) (by rw [hs]; simp)
      simp only [List.length_append, List.length_cons, List.length_nil] at this
      simp only [List.map_cons]
      rw [show pre.length + b.length + nm.length + 1 = pre.length + b.length + nm.length + (0 + 1) by omega, this]
      simp

/-! ## Key maps -/

theorem findKey_some {m : List (Name × Key)} {nm : Name} {k : Key} (h : findKey m nm = some k) : (nm, k) ∈ m := by
  unfold findKey at h
  cases hf : m.find? (fun e => decide (e.1 = nm)) with
  | none => rw [hf] at h; cases h
  | some e =>
    rw [hf] at h
    have h1 := List.find?_some hf
    have h2 := List.mem_of_find?_eq_some hf
    simp only [Option.map_some, Option.some.injEq] at h
    simp only [decide_eq_true_eq] at h1
    obtain ⟨e1, e2⟩ := e
    simp only at h h1
    rw [← h, ← h1]
    exact h2

theorem buildMap_mem {names : List Name} {entries : List Key} {e : Name × Key} (h : e ∈ buildMap names entries) :
    e.2 ∈ entries ∧ e.2.name names = some e.1 := by
  unfold buildMap at h
  have key : ∀ (l : List Key) (m : List (Name × Key)), (∀ x ∈ l, x ∈ entries) →
      (∀ e ∈ m, e.2 ∈ entries ∧ e.2.name names = some e.1) → ∀ e ∈ l.foldl (fun m k =>
        match k.name names with
        | none => m
        | some nm => if m.any (fun e => decide (e.1 = nm)) then m else m ++ [(nm, k)]) m,
        e.2 ∈ entries ∧ e.2.name names = some e.1 := by
    intro l
    induction l with
    | nil => intro m _ hm e he; exact hm e he
    | cons k l ih =>
      intro m hl hm
      simp only [List.foldl_cons]
      apply ih _ (fun x hx => hl x (List.mem_cons_of_mem _ hx))
      cases hk : k.name names with
      | none => exact hm
      | some nm =>
        simp only
        split
        · exact hm
        · intro e he
          rcases List.mem_append.1 he with he | he
          · exact hm e he
          · rw [List.mem_singleton] at he
            subst he
            exact ⟨hl k (by simp), hk⟩
  exact key entries [] (fun x hx => hx) (by simp) e h

/-- What a registered key set knows. -/
theorem registered_getKey {decl : Decl} {ks : KeySet} (h : Registered decl ks) (nm : Name) (k : Key) :
    ks.getKey nm = some k ↔ decl[k.index]? = some (nm, k.ty, k.required) := by
  obtain ⟨hnd, entries, hE, hI⟩ := h
  unfold initMap at hI
  simp only at hI
  split at hI
  · cases hI
  · split at hI
    · next hall =>
      obtain rfl := Option.some.inj hI
      have hfwd : ∀ nm k, findKey (buildMap (decl.map (·.1)) entries) nm = some k →
          decl[k.index]? = some (nm, k.ty, k.required) := by
        intro nm k hk
        obtain ⟨h1, h2⟩ := buildMap_mem (findKey_some hk)
        obtain ⟨nm', hn⟩ := hE k h1
        simp only [Key.name, List.getElem?_map, hn, Option.map_some, Option.some.injEq] at h2
        rw [hn, h2]
      constructor
      · exact hfwd nm k
      · intro hk
        simp only [List.all_eq_true] at hall
        have hmem : nm ∈ decl.map (·.1) := List.mem_map.2 ⟨_, List.mem_of_getElem? hk, rfl⟩
        obtain ⟨k', hk'⟩ := Option.isSome_iff_exists.1 (hall nm hmem)
        have h2 := hfwd nm k' hk'
        have hidx : k'.index = k.index := by
          have a : (decl.map (·.1))[k'.index]? = some nm := by simp [h2]
          have b : (decl.map (·.1))[k.index]? = some nm := by simp [hk]
          obtain ⟨la, ea⟩ := List.getElem?_eq_some_iff.1 a
          obtain ⟨lb, eb⟩ := List.getElem?_eq_some_iff.1 b
          exact (List.Nodup.getElem_inj_iff hnd).1 (ea.trans eb.symm)
        rw [hidx, hk] at h2
        simp only [Option.some.injEq, Prod.mk.injEq, true_and] at h2
        unfold KeySet.getKey
        rw [hk']
        obtain ⟨i', t', r'⟩ := k'
        obtain ⟨i, t, r⟩ := k
        simp_all
    · cases hI

theorem registered_names {decl : Decl} {ks : KeySet} (h : Registered decl ks) : ks.names = decl.map (·.1) := by
  obtain ⟨_, entries, _, hI⟩ := h
  unfold initMap at hI
  simp only at hI
  split at hI
  · cases hI
  · split at hI
    · obtain rfl := Option.some.inj hI; rfl
    · cases hI

theorem registered_map {decl : Decl} {ks : KeySet} (h : Registered decl ks) {e : Name × Key} (he : e ∈ ks.map) :
    ks.getKey e.1 = some e.2 := by
  rw [registered_getKey h]
  obtain ⟨_, entries, hE, hI⟩ := h
  unfold initMap at hI
  simp only at hI
  split at hI
  · cases hI
  · split at hI
    · obtain rfl := Option.some.inj hI
      obtain ⟨h1, h2⟩ := buildMap_mem he
      obtain ⟨nm', hn⟩ := hE _ h1
      simp only [Key.name, List.getElem?_map, hn, Option.map_some, Option.some.injEq] at h2
      rw [hn, h2]
    · cases hI

/-! ## Data sets -/
variable {R : Type _}

theorem declType_eq {decl : Decl} {ks : KeySet} (h : Registered decl ks) (nm : Name) :
    declType decl nm = (ks.getKey nm).map (·.ty) := by
  unfold declType
  cases hf : decl.find? (fun e => decide (e.1 = nm)) with
  | none =>
    cases hk : ks.getKey nm with
    | none => rfl
    | some k =>
      exfalso
      have h1 := (registered_getKey h nm k).1 hk
      have := List.find?_eq_none.1 hf _ (List.mem_of_getElem? h1)
      simp at this
  | some e =>
    have h1 := List.find?_some hf
    simp only [decide_eq_true_eq] at h1
    obtain ⟨i, hi⟩ := List.mem_iff_getElem?.1 (List.mem_of_find?_eq_some hf)
    obtain ⟨a, t, r⟩ := e
    simp only at h1
    subst h1
    have := (registered_getKey h a ⟨i, t, r⟩).2 hi
    rw [this]
    rfl

/-- The index a call writes and the value. -/
theorem setName_eq {decl : Decl} {d : DataSet R} (toDouble : Int → R) (h : Registered decl d.keys)
    (hlen : d.data.length = decl.length) (nm : Name) (g : Given R) (hc : Compiles decl (.setName nm g)) :
    d.setName toDouble nm g = match (d.keys.getKey nm).bind (fun k => (coerce toDouble k.ty g).map (fun v => (k.index, v))) with
      | none => .error
      | some (i, v) => .ok { d with data := d.data.set i (some v) } := by
  unfold DataSet.setName
  cases hk : d.keys.getKey nm with
  | none => rfl
  | some k =>
    have hi : k.index < d.data.length := by
      rw [hlen]
      exact (List.getElem?_eq_some_iff.1 ((registered_getKey h nm k).1 hk)).1
    simp only [Option.bind_some]
    cases g with
    | int v s =>
      simp only
      cases ht : k.ty <;> simp only [coerce, reduceCtorEq, if_false, if_true, Option.map_none, Option.map_some, DataSet.write, hi]
      by_cases hv : 0 ≤ v
      · rw [if_neg (by omega), if_pos hv]; rfl
      · have hs : s = true := by
          rcases hc with hc | hc
          · exact hc
          · exact absurd hc hv
        rw [if_pos ⟨hs, by omega⟩, if_neg hv]; rfl
    | vec3i v =>
      simp only
      cases ht : k.ty <;> simp only [coerce, reduceCtorEq, if_false, if_true, Option.map_none, Option.map_some, DataSet.write, hi]
    | other v =>
      simp only
      by_cases hv : v.ty = k.ty
      · rw [if_pos hv.symm]
        have : coerce toDouble k.ty (Given.other v) = some v := by
          cases hk' : k.ty <;> simp only [coerce] <;> rw [if_pos (hv.trans hk')]
        simp [this, DataSet.write, hi]
      · rw [if_neg (fun h => hv h.symm)]
        have : coerce toDouble k.ty (Given.other v) = none := by
          cases hk' : k.ty <;> simp only [coerce] <;> rw [if_neg (fun h => hv (h.trans hk'.symm))]
        simp [this]

/-- Contents of a data set in terms of a function on names. -/
def Holds (decl : Decl) (ks : KeySet) (d : DataSet R) (f : Name → Option (Val R)) : Prop :=
  d.keys = ks ∧ d.data = decl.map (fun e => f e.1)

theorem set_holds {decl : Decl} (hnd : (decl.map (·.1)).Nodup) {f : Name → Option (Val R)} {i : Nat} {nm t r}
    (hi : decl[i]? = some (nm, t, r)) (v : Val R) :
    (decl.map (fun e => f e.1)).set i (some v) = decl.map (fun e => if e.1 = nm then some v else f e.1) := by
  apply List.ext_getElem?
  intro j
  rw [List.getElem?_set]
  obtain ⟨hl, he⟩ := List.getElem?_eq_some_iff.1 hi
  by_cases hij : i = j
  · subst hij
    simp [hl, he]
  · rw [if_neg hij]
    simp only [List.getElem?_map]
    cases hj : decl[j]? with
    | none => rfl
    | some e =>
      simp only [Option.map_some, Option.some.injEq]
      rw [if_neg]
      intro hen
      apply hij
      have a : (decl.map (·.1))[i]? = some nm := by simp [hi]
      have b : (decl.map (·.1))[j]? = some nm := by simp [hj, hen]
      obtain ⟨la, ea⟩ := List.getElem?_eq_some_iff.1 a
      obtain ⟨lb, eb⟩ := List.getElem?_eq_some_iff.1 b
      exact (List.Nodup.getElem_inj_iff hnd).1 (ea.trans eb.symm)

theorem lastSet_snoc (toDouble : Int → R) (decl : Decl) (ops : List (Op R)) (o : Op R) (nm : Name) :
    lastSet toDouble decl (ops ++ [o]) nm =
      match effect toDouble decl o with
      | none => lastSet toDouble decl ops nm
      | some (n, v) => if nm = n then some v else lastSet toDouble decl ops nm := by
  unfold lastSet
  rw [List.filterMap_append]
  cases ho : effect toDouble decl o with
  | none => simp [List.filterMap_cons, ho]
  | some e =>
    obtain ⟨n, v⟩ := e
    simp only [List.filterMap_cons, ho, List.filterMap_nil, List.reverse_append, List.reverse_cons, List.reverse_nil,
      List.nil_append, List.cons_append, List.find?_cons]
    by_cases h : n = nm
    · simp [h]
    · simp [h, Ne.symm h]

theorem holds_step {decl : Decl} {ks : KeySet} (h : Registered decl ks) (toDouble : Int → R) {d : DataSet R}
    {ops : List (Op R)} (hd : Holds decl ks d (lastSet toDouble decl ops)) (o : Op R) (ho : Compiles decl o) :
    Holds decl ks (d.step toDouble o) (lastSet toDouble decl (ops ++ [o])) := by
  obtain ⟨e1, e2⟩ := hd
  have hlen : d.data.length = decl.length := by rw [e2]; simp
  have hf : ∀ {i nm t r} (_ : decl[i]? = some (nm, t, r)) (v : Val R) (_ : effect toDouble decl o = some (nm, v)),
      Holds decl ks ⟨d.keys, d.data.set i (some v)⟩ (lastSet toDouble decl (ops ++ [o])) := by
    intro i nm t r hi v he
    refine ⟨e1, ?_⟩
    simp only
    rw [e2, set_holds h.1 hi]
    refine List.map_congr_left fun e _ => ?_
    rw [lastSet_snoc, he]
  have hsame : effect toDouble decl o = none → Holds decl ks d (lastSet toDouble decl (ops ++ [o])) := by
    intro he
    refine ⟨e1, ?_⟩
    rw [e2]
    refine List.map_congr_left fun e _ => ?_
    rw [lastSet_snoc, he]
  cases o with
  | setKey k v =>
    obtain ⟨_, nm, hk⟩ := ho
    have hl : k.index < d.data.length := by rw [hlen]; exact (List.getElem?_eq_some_iff.1 hk).1
    simp only [DataSet.step, DataSet.setKey, DataSet.write, hl, if_true]
    exact hf hk v (by simp [effect, hk])
  | setName nm g =>
    have hE : effect toDouble decl (.setName nm g) = ((ks.getKey nm).bind (fun k => coerce toDouble k.ty g)).map (fun v => (nm, v)) := by
      simp only [effect, declType_eq h, Option.bind_map]
      rfl
    simp only [DataSet.step]
    rw [setName_eq toDouble (e1 ▸ h) hlen nm g ho, e1]
    cases hk : ks.getKey nm with
    | none =>
      simp only [Option.bind_none]
      exact hsame (by rw [hE, hk]; rfl)
    | some k =>
      simp only [Option.bind_some]
      cases hv : coerce toDouble k.ty g with
      | none =>
        simp only [Option.map_none]
        exact hsame (by rw [hE, hk]; simp [hv])
      | some v =>
        simp only [Option.map_some]
        have := hf ((registered_getKey h nm k).1 hk) v (by rw [hE, hk]; simp [hv])
        rwa [e1] at this

theorem holds_run {decl : Decl} {ks : KeySet} (h : Registered decl ks) (toDouble : Int → R) (ops : List (Op R))
    (ho : ∀ o ∈ ops, Compiles decl o) :
    Holds decl ks ((DataSet.new ks).run toDouble ops) (lastSet toDouble decl ops) := by
  induction ops using List.reverseRec with
  | nil =>
    refine ⟨rfl, ?_⟩
    simp only [DataSet.run, List.foldl_nil, DataSet.new, lastSet, List.filterMap_nil, List.reverse_nil, List.find?_nil, Option.map_none]
    rw [registered_names h]
    simp [List.map_const']
  | append_singleton ops o ih =>
    have := holds_step h toDouble (ih (fun o' h' => ho o' (by simp [h']))) o (ho o (by simp))
    simpa [DataSet.run, List.foldl_append] using this

theorem coerce_ty (toDouble : Int → R) {t : Ty} {g : Given R} {v : Val R} (h : coerce toDouble t g = some v) : v.ty = t := by
  cases g with
  | int n s =>
    cases t <;> simp only [coerce, reduceCtorEq, Option.some.injEq] at h
    · subst h; rfl
    · split at h
      · obtain rfl := Option.some.inj h; rfl
      · cases h
  | vec3i w =>
    cases t <;> simp only [coerce, reduceCtorEq, Option.some.injEq] at h <;> subst h <;> rfl
  | other w =>
    cases t <;> simp only [coerce] at h <;> split at h <;> first | (obtain rfl := Option.some.inj h; assumption) | cases h

theorem lastSet_ty {decl : Decl} {ks : KeySet} (h : Registered decl ks) (toDouble : Int → R) (ops : List (Op R))
    (ho : ∀ o ∈ ops, Compiles decl o) {i : Nat} {nm t r} (hi : decl[i]? = some (nm, t, r)) {v : Val R}
    (hv : lastSet toDouble decl ops nm = some v) : v.ty = t := by
  induction ops using List.reverseRec with
  | nil => simp [lastSet] at hv
  | append_singleton ops o ih =>
    rw [lastSet_snoc] at hv
    have ih' := ih (fun o' h' => ho o' (by simp [h']))
    have hoo := ho o (by simp)
    cases hE : effect toDouble decl o with
    | none => rw [hE] at hv; exact ih' hv
    | some e =>
      obtain ⟨n, w⟩ := e
      rw [hE] at hv
      simp only at hv
      by_cases hn : nm = n
      · rw [if_pos hn] at hv
        obtain rfl := Option.some.inj hv
        subst hn
        have hk := (registered_getKey h nm ⟨i, t, r⟩).2 hi
        cases o with
        | setKey k v =>
          obtain ⟨e1, nm', hk'⟩ := hoo
          simp only [effect, hk', Option.map_some, Option.some.injEq, Prod.mk.injEq] at hE
          obtain ⟨rfl, rfl⟩ := hE
          have := (registered_getKey h nm' k).2 hk'
          rw [hk] at this
          have := Option.some.inj this
          rw [e1, ← this]
        | setName nm' g =>
          simp only [effect, declType_eq h] at hE
          cases hg : ks.getKey nm' with
          | none => rw [hg] at hE; cases hE
          | some k =>
            rw [hg] at hE
            simp only [Option.map_some, Option.bind_some] at hE
            cases hc : coerce toDouble k.ty g with
            | none => rw [hc] at hE; cases hE
            | some u =>
              rw [hc] at hE
              simp only [Option.map_some, Option.some.injEq, Prod.mk.injEq] at hE
              obtain ⟨rfl, rfl⟩ := hE
              rw [hk] at hg
              have := Option.some.inj hg
              rw [coerce_ty toDouble hc, ← this]
      · rw [if_neg hn] at hv
        exact ih' hv

/-! ## Required values -/

theorem seqAll_spec {α : Type _} (f : α → Res Unit) (l : List α) (hub : ∀ a ∈ l, f a ≠ .ub) :
    seqAll f l ≠ .ub ∧ (seqAll f l = .ok () ↔ ∀ a ∈ l, f a = .ok ()) := by
  induction l with
  | nil => simp [seqAll]
  | cons a l ih =>
    have ih := ih (fun b hb => hub b (List.mem_cons_of_mem _ hb))
    have ha := hub a (by simp)
    unfold seqAll
    cases hf : f a with
    | ok u =>
      simp only
      refine ⟨ih.1, ?_⟩
      rw [ih.2]
      simp [hf]
    | error => simp [hf]
    | ub => exact absurd hf ha

theorem data_check {decl : Decl} {d : DataSet R} (h : Registered decl d.keys) (hlen : d.data.length = decl.length) :
    d.checkRequired ≠ .ub ∧ (d.checkRequired = .ok () ↔
      ¬ ∃ nm k, d.keys.getKey nm = some k ∧ k.required = true ∧ d.isSetName nm = .ok false) := by
  unfold DataSet.checkRequired
  have hget : ∀ nm k, d.keys.getKey nm = some k → ∃ o, d.data[k.index]? = some o := by
    intro nm k hk
    have := (List.getElem?_eq_some_iff.1 ((registered_getKey h nm k).1 hk)).1
    rw [← hlen] at this
    exact ⟨_, List.getElem?_eq_getElem this⟩
  have hub : ∀ e ∈ d.keys.map, (if e.2.required then
      match d.data[e.2.index]? with
      | none => Res.ub
      | some none => .error
      | some (some _) => .ok ()
    else .ok ()) ≠ Res.ub := by
    intro e he
    obtain ⟨o, ho⟩ := hget _ _ (registered_map h he)
    rw [ho]
    cases o <;> split <;> simp
  obtain ⟨h1, h2⟩ := seqAll_spec _ _ hub
  refine ⟨h1, h2.trans ?_⟩
  constructor
  · rintro hall ⟨nm, k, hk, hr, hu⟩
    have := hall (nm, k) (findKey_some hk)
    simp only [hr, if_true] at this
    simp only [DataSet.isSetName, hk, DataSet.isSet] at hu
    obtain ⟨o, ho⟩ := hget _ _ hk
    rw [ho] at this hu
    cases o with
    | none => simp at this
    | some v => simp at hu
  · intro hno e he
    have hk := registered_map h he
    obtain ⟨o, ho⟩ := hget _ _ hk
    rw [ho]
    split
    · next hr =>
      cases o with
      | none =>
        exfalso
        exact hno ⟨e.1, e.2, hk, hr, by simp [DataSet.isSetName, hk, DataSet.isSet, ho]⟩
      | some v => rfl
    · rfl

theorem visitAll_get (l : List (Option (Dict R))) (i : Nat) :
    (visitAll l)[i]? = (l[i]?).map (fun o => o.map Dict.checkRequired) := by
  induction l generalizing i with
  | nil => simp [visitAll]
  | cons a l ih =>
    cases a <;> cases i <;> simp [visitAll, ih]

theorem visitAll_eq (l : List (Option (Dict R))) : visitAll l = l.map (fun o => o.map Dict.checkRequired) := by
  apply List.ext_getElem?
  intro i
  rw [visitAll_get]
  simp

theorem visitLists_get (l : List (List (Option (Dict R)))) (i : Nat) :
    (visitLists l)[i]? = (l[i]?).map visitAll := by
  induction l generalizing i with
  | nil => simp [visitLists]
  | cons a l ih => cases i <;> simp [visitLists, ih]

theorem fits_get {ks : KeySet} {n : Nat} (h : KeysFit ks n) {nm k} (hk : ks.getKey nm = some k) : k.index < n := by
  obtain ⟨decl, hr, hl⟩ := h
  rw [← hl]
  exact (List.getElem?_eq_some_iff.1 ((registered_getKey hr nm k).1 hk)).1

theorem fits_mem {ks : KeySet} {n : Nat} (h : KeysFit ks n) {e} (he : e ∈ ks.map) : ks.getKey e.1 = some e.2 := by
  obtain ⟨decl, hr, hl⟩ := h
  exact registered_map hr he

theorem dict_check {d : Dict R} (h : WellFormed d) :
    d.checkRequired ≠ .ub ∧ (d.checkRequired = .ok () ↔ ¬ Missing d) := by
  induction h with
  | @node data subKeys subs listKeys lists hd hs hl hsub hlist ihs ihl =>
    -- data
    obtain ⟨a1, a2⟩ : checkData data ≠ Res.ub ∧
        (checkData data = Res.ok () ↔
          ∀ d, data = some d → ¬ ∃ nm k, d.keys.getKey nm = some k ∧ k.required = true ∧ d.isSetName nm = .ok false) := by
      cases data with
      | none => simp [checkData]
      | some d =>
        obtain ⟨decl, hr, hlen⟩ := hd d rfl
        have := data_check hr hlen.symm
        refine ⟨this.1, this.2.trans ?_⟩
        constructor
        · intro h d' e; obtain rfl := Option.some.inj e; exact h
        · intro h; exact h d rfl
    -- sub dictionaries
    obtain ⟨b1, b2⟩ : checkSubs (visitAll subs) subKeys ≠ Res.ub ∧
        (checkSubs (visitAll subs) subKeys = Res.ok () ↔
          ∀ ks, subKeys = some ks → ∀ nm k, ks.getKey nm = some k → ∃ d, subs[k.index]? = some (some d) ∧ ¬ Missing d) := by
      cases subKeys with
      | none => simp [checkSubs]
      | some ks =>
        have hfit := hs ks rfl
        have hub : ∀ e ∈ ks.map, (match (visitAll subs)[e.2.index]? with
            | none => Res.ub
            | some none => .error
            | some (some r) => r) ≠ Res.ub := by
          intro e he
          have hlt := fits_get hfit (fits_mem hfit he)
          rw [visitAll_get, List.getElem?_eq_getElem hlt]
          cases ho : subs[e.2.index] with
          | none => simp
          | some d => simpa using (ihs d (ho ▸ List.getElem_mem hlt)).1
        obtain ⟨c1, c2⟩ := seqAll_spec _ _ hub
        refine ⟨c1, c2.trans ?_⟩
        constructor
        · intro h ks' e nm k hk
          obtain rfl := Option.some.inj e
          have := h (nm, k) (findKey_some hk)
          have hlt := fits_get hfit hk
          rw [visitAll_get, List.getElem?_eq_getElem hlt] at this
          rw [List.getElem?_eq_getElem hlt]
          cases ho : subs[k.index] with
          | none => simp [ho] at this
          | some d =>
            simp only [ho, Option.map_some] at this
            exact ⟨d, rfl, (ihs d (ho ▸ List.getElem_mem hlt)).2.1 this⟩
        · intro h e he
          have hk := fits_mem hfit he
          obtain ⟨d, hd', hm⟩ := h ks rfl e.1 e.2 hk
          rw [visitAll_get, hd']
          simp only [Option.map_some]
          exact (ihs d (List.mem_of_getElem? hd')).2.2 hm
    -- lists
    obtain ⟨l1, l2⟩ : checkLists (visitLists lists) listKeys ≠ Res.ub ∧
        (checkLists (visitLists lists) listKeys = Res.ok () ↔
          ∀ ks, listKeys = some ks → ∀ nm k, ks.getKey nm = some k → ∀ l, lists[k.index]? = some l →
            none ∉ l ∧ ∀ d, some d ∈ l → ¬ Missing d) := by
      cases listKeys with
      | none => simp [checkLists]
      | some ks =>
        have hfit := hl ks rfl
        have inner : ∀ l ∈ lists, checkEntries (visitAll l) ≠ Res.ub ∧
            (checkEntries (visitAll l) = Res.ok () ↔
              none ∉ l ∧ ∀ d, some d ∈ l → ¬ Missing d) := by
          intro l hlm
          have hub : ∀ o ∈ visitAll l, (match o with | none => Res.error | some r => r) ≠ Res.ub := by
            intro o ho
            rw [visitAll_eq] at ho
            obtain ⟨x, hx, rfl⟩ := List.mem_map.1 ho
            cases x with
            | none => simp
            | some d => simpa using (ihl l hlm d hx).1
          obtain ⟨c1, c2⟩ := seqAll_spec _ _ hub
          refine ⟨c1, c2.trans ?_⟩
          rw [visitAll_eq]
          constructor
          · intro h
            constructor
            · intro hn
              have := h none (List.mem_map.2 ⟨none, hn, rfl⟩)
              simp at this
            · intro d hdm
              have := h (some d.checkRequired) (List.mem_map.2 ⟨some d, hdm, rfl⟩)
              exact (ihl l hlm d hdm).2.1 this
          · rintro ⟨h1, h2⟩ o ho
            obtain ⟨x, hx, rfl⟩ := List.mem_map.1 ho
            cases x with
            | none => exact absurd hx h1
            | some d => exact (ihl l hlm d hx).2.2 (h2 d hx)
        have hub : ∀ e ∈ ks.map, (match (visitLists lists)[e.2.index]? with
            | none => Res.ub
            | some l => checkEntries l) ≠ Res.ub := by
          intro e he
          have hlt := fits_get hfit (fits_mem hfit he)
          rw [visitLists_get, List.getElem?_eq_getElem hlt]
          exact (inner _ (List.getElem_mem hlt)).1
        obtain ⟨c1, c2⟩ := seqAll_spec _ _ hub
        refine ⟨c1, c2.trans ?_⟩
        constructor
        · intro h ks' e nm k hk l hlk
          obtain rfl := Option.some.inj e
          have := h (nm, k) (findKey_some hk)
          rw [visitLists_get, hlk] at this
          exact (inner l (List.mem_of_getElem? hlk)).2.1 this
        · intro h e he
          have hk := fits_mem hfit he
          have hlt := fits_get hfit hk
          rw [visitLists_get, List.getElem?_eq_getElem hlt]
          exact (inner _ (List.getElem_mem hlt)).2.2 (h ks rfl e.1 e.2 hk _ (List.getElem?_eq_getElem hlt))
    -- together
    have hmiss : Missing (.node data subKeys subs listKeys lists) ↔
        ¬ ((∀ d, data = some d → ¬ ∃ nm k, d.keys.getKey nm = some k ∧ k.required = true ∧ d.isSetName nm = .ok false) ∧
          (∀ ks, subKeys = some ks → ∀ nm k, ks.getKey nm = some k → ∃ d, subs[k.index]? = some (some d) ∧ ¬ Missing d) ∧
          (∀ ks, listKeys = some ks → ∀ nm k, ks.getKey nm = some k → ∀ l, lists[k.index]? = some l →
            none ∉ l ∧ ∀ d, some d ∈ l → ¬ Missing d)) := by
      constructor
      · rintro hm ⟨h1, h2, h3⟩
        cases hm with
        | value hk hr hu => exact h1 _ rfl ⟨_, _, hk, hr, hu⟩
        | subUnset hk hu =>
          obtain ⟨d, hd', _⟩ := h2 _ rfl _ _ hk
          rw [hu] at hd'; cases hd'
        | sub hk hu hm =>
          obtain ⟨d, hd', hn⟩ := h2 _ rfl _ _ hk
          rw [hu] at hd'
          obtain rfl := Option.some.inj (Option.some.inj hd')
          exact hn hm
        | entryUnset hk hu hn => exact (h3 _ rfl _ _ hk _ hu).1 hn
        | entry hk hu hn hm => exact (h3 _ rfl _ _ hk _ hu).2 _ hn hm
      · intro hn
        by_contra hm
        apply hn
        refine ⟨?_, ?_, ?_⟩
        · rintro d rfl ⟨nm, k, hk, hr, hu⟩
          exact hm (.value hk hr hu)
        · rintro ks rfl nm k hk
          have hlt := fits_get (hs ks rfl) hk
          have hget := List.getElem?_eq_getElem hlt
          cases ho : subs[k.index] with
          | none => rw [ho] at hget; exact absurd (.subUnset hk hget) hm
          | some d =>
            rw [ho] at hget
            exact ⟨d, hget, fun hmd => hm (.sub hk hget hmd)⟩
        · rintro ks rfl nm k hk l hlk
          exact ⟨fun hnn => hm (.entryUnset hk hlk hnn), fun d hdl hmd => hm (.entry hk hlk hdl hmd)⟩
    rw [Dict.checkRequired]
    generalize checkData data = ra at a1 a2 ⊢
    generalize checkSubs (visitAll subs) subKeys = rb at b1 b2 ⊢
    generalize checkLists (visitLists lists) listKeys = rc at l1 l2 ⊢
    rw [hmiss, not_not, ← a2, ← b2, ← l2]
    clear * - a1 b1 l1
    cases ra <;> cases rb <;> cases rc <;> simp_all [Res.andThen]

end QuESo.Settings
