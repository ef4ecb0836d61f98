import Verif.Proofs.JsonRead
import Verif.Spec.SettingsFactory

/-!
# Settings made by calls
-/
namespace QuESo.Json
open QuESo.Settings QuESo.Spec

variable {rnd : ℚ → ℚ} {cond : Dict ℚ}

/-! ## Calls keep the form of settings -/

theorem setName_ok {d d' : DataSet ℚ} {toDouble : Int → ℚ} {nm : Name} {g : Given ℚ} (h : d.setName toDouble nm g = .ok d') :
    ∃ k v, d.keys.getKey nm = some k ∧ v.ty = k.ty ∧ k.index < d.data.length ∧ d' = ⟨d.keys, d.data.set k.index (some v)⟩ := by
  have write_ok : ∀ (i : Nat) (v : Val ℚ), d.write i v = .ok d' → i < d.data.length ∧ d' = ⟨d.keys, d.data.set i (some v)⟩ := by
    intro i v hw
    unfold DataSet.write at hw
    split at hw
    · next hlt => exact ⟨hlt, (Res.ok.inj hw).symm⟩
    · cases hw
  unfold DataSet.setName at h
  cases hk : d.keys.getKey nm with
  | none => rw [hk] at h; cases h
  | some k =>
    rw [hk] at h
    cases g with
    | int v signed =>
      dsimp only at h
      split at h
      · next ht => obtain ⟨h1, h2⟩ := write_ok _ _ h; refine ⟨k, _, rfl, ?_, h1, h2⟩; exact ht.symm
      · split at h
        · next ht =>
          split at h
          · cases h
          · obtain ⟨h1, h2⟩ := write_ok _ _ h; refine ⟨k, _, rfl, ?_, h1, h2⟩; exact ht.symm
        · cases h
    | vec3i v =>
      dsimp only at h
      split at h
      · next ht => obtain ⟨h1, h2⟩ := write_ok _ _ h; refine ⟨k, _, rfl, ?_, h1, h2⟩; exact ht.symm
      · split at h
        · next ht => obtain ⟨h1, h2⟩ := write_ok _ _ h; refine ⟨k, _, rfl, ?_, h1, h2⟩; exact ht.symm
        · cases h
    | other v =>
      dsimp only at h
      split at h
      · next ht => obtain ⟨h1, h2⟩ := write_ok _ _ h; refine ⟨k, _, rfl, ?_, h1, h2⟩; exact ht.symm
      · cases h

theorem dataOf_set {b d d' : DataSet ℚ} (hfit : KeysFit b.keys b.data.length) (h : DataOf (some b) (some d)) {toDouble : Int → ℚ}
    {nm : Name} {g : Given ℚ} (hs : d.setName toDouble nm g = .ok d') : DataOf (some b) (some d') := by
  obtain ⟨h1, h2, h3, h4⟩ := h
  obtain ⟨k, v, hk, ht, hlt, rfl⟩ := setName_ok hs
  refine ⟨h1, by simpa using h2, ?_, ?_⟩
  · intro i w hw
    by_cases hi : k.index = i
    · subst hi; exact ⟨v, by simp [hlt]⟩
    · obtain ⟨w', hw'⟩ := h3 i w hw
      exact ⟨w', by rw [List.getElem?_set_ne hi]; exact hw'⟩
  · intro e he w hw
    by_cases hi : k.index = e.2.index
    · have hw : (d.data.set k.index (some v))[e.2.index]? = some (some w) := hw
      rw [← hi, List.getElem?_set_self hlt] at hw
      cases hw
      obtain ⟨decl, hr, -⟩ := hfit
      rw [h1] at hk
      have he : e ∈ b.keys.map := by rw [← h1]; exact he
      have e1 := (registered_getKey hr _ _).1 hk
      have e2 := (registered_getKey hr _ _).1 (registered_map hr he)
      rw [hi, e2] at e1
      rw [ht]
      exact (congrArg (fun x => x.2.1) (Option.some.inj e1)).symm
    · exact h4 e he w (by rw [← hw]; exact (List.getElem?_set_ne hi).symm)

theorem Res.bind_ok {α β : Type _} {x : Res α} {f : α → Res β} {b : β} (h : x.bind f = .ok b) : ∃ a, x = .ok a ∧ f a = .ok b := by
  cases x with
  | ok a => exact ⟨a, rfl, h⟩
  | error => cases h
  | ub => cases h

theorem settingsOf_apply (hwc : Writable cond) (e : Edit) : ∀ {b d d' : Dict ℚ}, Writable b → SettingsOf cond b d →
    (∀ c ∈ e.appended, SettingsOf cond cond c) → e.apply rnd d = .ok d' → SettingsOf cond b d' := by
  induction e with
  | set nm g =>
    intro b d d' hw h _ ha
    cases h with
    | @node bdata data subKeys bsubs subs listKeys blists lists hdata hlen hb hs hsub hempty hnull hlist =>
      rw [Edit.apply] at ha
      cases data with
      | none => simp [setValue] at ha
      | some ds =>
        simp only [setValue] at ha
        obtain ⟨ds', h1, h2⟩ := Res.bind_ok ha
        cases h2
        cases bdata with
        | none => exact absurd hdata (by simp [DataOf])
        | some bs =>
          obtain ⟨wd, -⟩ := hw
          exact .node (dataOf_set (wd bs rfl) hdata h1) hlen hb hs hsub hempty hnull hlist
  | append nm c =>
    intro b d d' hw h hap ha
    cases h with
    | @node bdata data subKeys bsubs subs listKeys blists lists hdata hlen hb hs hsub hempty hnull hlist =>
      rw [Edit.apply] at ha
      cases listKeys with
      | none => simp [onList] at ha
      | some ks =>
        simp only [onList] at ha
        cases hk : ks.getKey nm with
        | none => rw [hk] at ha; cases ha
        | some k =>
          rw [hk] at ha
          dsimp only at ha
          cases hl : lists[k.index]? with
          | none => rw [hl] at ha; cases ha
          | some l =>
            rw [hl] at ha
            cases ha
            have hmem : ∀ x, x ∈ lists.set k.index (l ++ [some c]) → x ∈ lists ∨ x = l ++ [some c] := fun x hx => List.mem_or_eq_of_mem_set hx
            have hlm := List.mem_of_getElem? hl
            refine .node hdata hlen hb hs hsub ?_ ?_ ?_
            · rw [hempty, List.map_const', List.map_const']; simp
            · intro x hx
              rcases hmem x hx with hx | rfl
              · exact hnull x hx
              · intro hn
                rcases List.mem_append.1 hn with hn | hn
                · exact hnull l hlm hn
                · simp at hn
            · intro x hx d0 hd0
              rcases hmem x hx with hx | rfl
              · exact hlist x hx d0 hd0
              · rcases List.mem_append.1 hd0 with hd0 | hd0
                · exact hlist l hlm d0 hd0
                · simp only [List.mem_singleton, Option.some.injEq] at hd0
                  subst hd0; exact hap _ (by simp [Edit.appended])
  | sub nm e ih =>
    intro b d d' hw h hap ha
    cases h with
    | @node bdata data subKeys bsubs subs listKeys blists lists hdata hlen hb hs hsub hempty hnull hlist =>
      rw [Edit.apply] at ha
      cases subKeys with
      | none => simp [onSub] at ha
      | some ks =>
        simp only [onSub] at ha
        cases hk : ks.getKey nm with
        | none => rw [hk] at ha; cases ha
        | some k =>
          rw [hk] at ha
          dsimp only at ha
          cases hl : subs[k.index]? with
          | none => rw [hl] at ha; cases ha
          | some o =>
            rw [hl] at ha
            cases o with
            | none => cases ha
            | some d0 =>
              dsimp only at ha
              obtain ⟨d1, h1, h2⟩ := Res.bind_ok ha
              cases h2
              have hlt := (List.getElem?_eq_some_iff.1 hl).1
              obtain ⟨-, -, -, -, -, -, -, -, wsub, -, -⟩ := hw
              refine .node hdata (by simpa using hlen) hb ?_ ?_ hempty hnull hlist
              · intro hn
                rcases List.mem_or_eq_of_mem_set hn with hn | hn
                · exact hs hn
                · cases hn
              · intro i b0 d2 hb0 hd2
                by_cases hi : k.index = i
                · subst hi
                  rw [List.getElem?_set_self hlt] at hd2
                  cases hd2
                  exact ih (wsub b0 (List.mem_of_getElem? hb0)) (hsub _ _ _ hb0 hl) hap h1
                · rw [List.getElem?_set_ne hi] at hd2
                  exact hsub i b0 d2 hb0 hd2
  | entry nm i e ih =>
    intro b d d' hw h hap ha
    cases h with
    | @node bdata data subKeys bsubs subs listKeys blists lists hdata hlen hb hs hsub hempty hnull hlist =>
      rw [Edit.apply] at ha
      cases listKeys with
      | none => simp [onEntry] at ha
      | some ks =>
        simp only [onEntry] at ha
        cases hk : ks.getKey nm with
        | none => rw [hk] at ha; cases ha
        | some k =>
          rw [hk] at ha
          dsimp only at ha
          cases hl : lists[k.index]? with
          | none => rw [hl] at ha; cases ha
          | some l =>
            rw [hl] at ha
            dsimp only at ha
            split at ha
            · next d0 hd0 =>
              obtain ⟨d1, h1, h2⟩ := Res.bind_ok ha
              cases h2
              have hlm := List.mem_of_getElem? hl
              have hmem : ∀ x, x ∈ lists.set k.index (l.set i (some d1)) → x ∈ lists ∨ x = l.set i (some d1) :=
                fun x hx => List.mem_or_eq_of_mem_set hx
              refine .node hdata hlen hb hs hsub ?_ ?_ ?_
              · rw [hempty, List.map_const', List.map_const']; simp
              · intro x hx
                rcases hmem x hx with hx | rfl
                · exact hnull x hx
                · intro hn
                  rcases List.mem_or_eq_of_mem_set hn with hn | hn
                  · exact hnull l hlm hn
                  · cases hn
              · intro x hx d2 hd2
                rcases hmem x hx with hx | rfl
                · exact hlist x hx d2 hd2
                · rcases List.mem_or_eq_of_mem_set hd2 with hd2 | hd2
                  · exact hlist l hlm d2 hd2
                  · cases hd2
                    exact ih hwc (hlist l hlm d0 (List.mem_of_getElem? hd0)) hap h1
            · cases ha

theorem settingsOf_run (hwc : Writable cond) {b : Dict ℚ} (hw : Writable b) (es : List Edit) : ∀ {d d' : Dict ℚ}, SettingsOf cond b d →
    (∀ e ∈ es, (∀ c ∈ e.appended, SettingsOf cond cond c)) → runEdits rnd es d = .ok d' → SettingsOf cond b d' := by
  induction es with
  | nil => intro d d' h _ hr; cases hr; exact h
  | cons e es ih =>
    intro d d' h hap hr
    rw [runEdits] at hr
    cases ha : e.apply rnd d with
    | ok d1 =>
      rw [ha] at hr
      exact ih (settingsOf_apply hwc e hw h (hap e (by simp)) ha) (fun x hx => hap x (by simp [hx])) hr
    | error => rw [ha] at hr; exact ih h (fun x hx => hap x (by simp [hx])) hr
    | ub => rw [ha] at hr; cases hr

/-! ## What is read can be written -/

theorem readable_writable {v : Val ℚ} (h : ReadableVal v) : WritableVal (some v) := by
  cases v with
  | string s => obtain ⟨r, h1, -⟩ := h; simp [WritableVal, h1]
  | _ => trivial

theorem readable_vals {d : Dict ℚ} (h : Readable d) : AllVals (fun v => WritableVal (some v)) d := by
  induction h with
  | node hvals hne hsub hlist ihs ihl => exact .node (fun d hd v hv => readable_writable (hvals d hd v hv)) ihs ihl

theorem dataOf_keys {b d : Option (DataSet ℚ)} (h : DataOf b d) : (d.map (·.keys)) = b.map (·.keys) := by
  cases b <;> cases d <;> simp_all [DataOf]

theorem settingsOf_writable {b d : Dict ℚ} (h : SettingsOf cond b d) (hwc : Writable cond) (hwb : Writable b)
    (hr : AllVals (fun v => WritableVal (some v)) d) : Writable d := by
  induction h with
  | @node bdata data subKeys bsubs subs listKeys blists lists hdata hlen hb hs hsub hempty hnull hlist ihs ihl =>
    obtain ⟨wd, ws, wl, ws0, wl0, wnames, wplain, -, wsub, -, -⟩ := hwb
    obtain ⟨rvals, rsub, rlist⟩ := hr
    have hn : memberNames data subKeys listKeys = memberNames bdata subKeys listKeys := by
      have := dataOf_keys hdata
      cases bdata <;> cases data <;> simp_all [memberNames]
    refine .node ?_ ?_ ?_ ?_ ?_ (hn ▸ wnames) (hn ▸ wplain) ?_ ?_ hnull ?_
    · intro d hd
      subst hd
      cases bdata with
      | none => exact absurd hdata (by simp [DataOf])
      | some x =>
        obtain ⟨h1, h2, -⟩ := hdata
        rw [h1, h2]; exact wd x rfl
    · intro ks hk; rw [← hlen]; exact ws ks hk
    · intro ks hk
      have := wl ks hk
      rw [hempty] at this; simpa using this
    · intro hk
      have := ws0 hk
      rw [this] at hlen
      exact List.length_eq_zero_iff.1 hlen.symm
    · intro hk
      have := wl0 hk
      rw [hempty] at this
      simpa using this
    · intro d hd o ho
      cases o with
      | none => trivial
      | some v => exact rvals d hd v ho
    · intro d hd
      obtain ⟨i, hi⟩ := List.mem_iff_getElem?.1 hd
      have hlt := (List.getElem?_eq_some_iff.1 hi).1
      obtain ⟨o, ho⟩ : ∃ o, bsubs[i]? = some o := ⟨_, List.getElem?_eq_getElem (by omega)⟩
      cases o with
      | none => exact absurd (List.mem_of_getElem? ho) hb
      | some b0 => exact ihs i b0 d ho hi (wsub b0 (List.mem_of_getElem? ho)) (rsub d hd)
    · intro l hl d hd
      exact ihl l hl d hd hwc (rlist l hl d hd)

theorem settingsOf_enum {b d : Dict ℚ} (h : SettingsOf cond b d) (hc : EnumDict cond) (hb : EnumDict b) : EnumDict d := by
  induction h with
  | @node bdata data subKeys bsubs subs listKeys blists lists hdata hlen hbn hs hsub hempty hnull hlist ihs ihl =>
    obtain ⟨ek, es, -⟩ := hb
    refine .node ?_ ?_ ?_
    · intro d hd
      subst hd
      cases bdata with
      | none => exact absurd hdata (by simp [DataOf])
      | some x =>
        obtain ⟨h1, -⟩ := hdata
        rw [h1]; exact ek x rfl
    · intro d hd
      obtain ⟨i, hi⟩ := List.mem_iff_getElem?.1 hd
      have hlt := (List.getElem?_eq_some_iff.1 hi).1
      obtain ⟨o, ho⟩ : ∃ o, bsubs[i]? = some o := ⟨_, List.getElem?_eq_getElem (by omega)⟩
      cases o with
      | none => exact absurd (List.mem_of_getElem? ho) hbn
      | some b0 => exact ihs i b0 d ho hi (es b0 (List.mem_of_getElem? ho))
    · intro l hl d hd
      exact ihl l hl d hd hc

/-- Writing and reading of any settings made from `b`. -/
theorem round_trip {b d : Dict ℚ} (hwc : Writable cond) (hwb : Writable b) (hec : EnumDict cond) (heb : EnumDict b)
    (h : SettingsOf cond b d) (hr : Readable d) :
    ∃ file, writeJSON d = .ok file ∧ readSettings rnd b cond file = .ok (dictBack rnd d) := by
  have hw := settingsOf_writable h hwc hwb (readable_vals hr)
  obtain ⟨file, h1, h2⟩ := load_write (rnd := rnd) hw
  refine ⟨file, h1, ?_⟩
  rw [readSettings, h2]
  exact reads h hw (settingsOf_enum h hec heb) hr

/-! ## The settings the factory makes -/

/-- A dictionary with values only. -/
def values (ks : KeySet) (data : List (Option (Val ℚ))) : Dict ℚ := .node (some ⟨ks, data⟩) none [] none []

theorem new_data {decl : Decl} {ks : KeySet} (h : Registered decl ks) : (DataSet.new ks : DataSet ℚ) = ⟨ks, List.replicate decl.length none⟩ := by
  rw [DataSet.new, registered_names h, List.length_map]

theorem createCondition_eq {ks : SettingsKeys} (h : KeysRegistered ks) :
    createCondition ks = .ok (values ks.condition (List.replicate 7 none)) := by
  rw [createCondition, valuesOnly, new_data h.condition]; rfl

theorem createSettings_eq {ks : SettingsKeys} (h : KeysRegistered ks) :
    createSettings rnd ks = .ok (.node none (some ks.mainSub)
      [some (values ks.general [none, some (.string "queso_output".toList), some (.index 1), some (.bool true)]),
       some (values ks.grid (List.replicate 7 none)),
       some (values ks.trimmed [some (.double (rnd (1 / 10 ^ 10))), some (.double (rnd (1 / 10 ^ 3))), some (.index 100), some (.bool true), none]),
       some (values ks.nonTrimmed [some (.method 0)])] (some ks.mainList) [[]]) := by
  simp only [createSettings, valuesOnly, new_data h.general, new_data h.grid, new_data h.trimmed, new_data h.nonTrimmed]
  rfl

theorem registered_names_nodup {decl : Decl} {ks : KeySet} (h : Registered decl ks) : (ks.map.map (·.1)).Nodup := by
  have key : ∀ (names : List Name) (entries : List Key) (m : List (Name × Key)), (m.map (·.1)).Nodup →
      ((entries.foldl (fun m k =>
        match k.name names with
        | none => m
        | some nm => if m.any (fun e => decide (e.1 = nm)) then m else m ++ [(nm, k)]) m).map (·.1)).Nodup := by
    intro names entries
    induction entries with
    | nil => intro m h; exact h
    | cons k l ih =>
      intro m hm
      rw [List.foldl_cons]
      apply ih
      cases k.name names with
      | none => exact hm
      | some nm =>
        dsimp only
        split
        · exact hm
        · next hany =>
          rw [List.map_append, List.nodup_append]
          refine ⟨hm, by simp, ?_⟩
          intro a ha b hb hab
          simp only [List.map_cons, List.map_nil, List.mem_singleton] at hb
          obtain ⟨e, he, rfl⟩ := List.mem_map.1 ha
          exact hany (List.any_eq_true.2 ⟨e, he, by simp [hab, hb]⟩)
  obtain ⟨_, entries, _, hI⟩ := h
  unfold initMap at hI
  simp only at hI
  split at hI
  · cases hI
  · split at hI
    · obtain rfl := Option.some.inj hI
      exact key _ entries [] (by simp)
    · cases hI

theorem registered_mem {decl : Decl} {ks : KeySet} (h : Registered decl ks) {e : Name × Key} (he : e ∈ ks.map) :
    (e.1, e.2.ty, e.2.required) ∈ decl ∧ decl[e.2.index]? = some (e.1, e.2.ty, e.2.required) := by
  have := (registered_getKey h _ _).1 (registered_map h he)
  exact ⟨List.mem_of_getElem? this, this⟩

theorem values_writable {decl : Decl} {ks : KeySet} (h : Registered decl ks) (hp : ∀ e ∈ decl, PlainText e.1) {data : List (Option (Val ℚ))}
    (hl : data.length = decl.length) (hv : ∀ o ∈ data, WritableVal o) : Writable (values ks data) := by
  refine .node ?_ (by simp) (by simp) (by simp) (by simp) ?_ ?_ ?_ (by simp) (by simp) (by simp)
  · rintro d ⟨⟩; exact ⟨decl, h, hl.symm⟩
  · simpa [memberNames] using registered_names_nodup h
  · intro nm hnm
    simp only [memberNames, Option.map_some, Option.getD_some, Option.map_none, Option.getD_none, List.append_nil, List.mem_map] at hnm
    obtain ⟨e, he, rfl⟩ := hnm
    exact hp _ (registered_mem h he).1
  · rintro d ⟨⟩; exact hv

theorem values_enum {decl : Decl} {ks : KeySet} (h : Registered decl ks)
    (hp : ∀ e ∈ decl, (e.2.1 = .method ↔ e.1 = "integration_method".toList) ∧ (e.2.1 = .grid ↔ e.1 = "grid_type".toList))
    (data : List (Option (Val ℚ))) : EnumDict (values ks data) := by
  refine .node ?_ (by simp) (by simp)
  rintro d ⟨⟩ e he
  exact hp _ (registered_mem h he).1

theorem values_self {decl : Decl} {ks : KeySet} (h : Registered decl ks) {data : List (Option (Val ℚ))}
    (ht : ∀ (i : Nat) v, data[i]? = some (some v) → ∀ x, decl[i]? = some x → v.ty = x.2.1) : SettingsOf cond (values ks data) (values ks data) := by
  refine .node ⟨rfl, rfl, fun i v hv => ⟨v, hv⟩, ?_⟩ rfl (by simp) (by simp) (by simp) (by simp) (by simp) (by simp)
  intro e he v hv
  exact ht _ v hv _ (registered_mem h he).2

theorem generalPlain : ∀ e ∈ generalDecl, PlainText e.1 := by unfold PlainText; decide +kernel
theorem gridPlain : ∀ e ∈ gridDecl, PlainText e.1 := by unfold PlainText; decide +kernel
theorem trimmedPlain : ∀ e ∈ trimmedDecl, PlainText e.1 := by unfold PlainText; decide +kernel
theorem nonTrimmedPlain : ∀ e ∈ nonTrimmedDecl, PlainText e.1 := by unfold PlainText; decide +kernel
theorem conditionPlain : ∀ e ∈ conditionDecl, PlainText e.1 := by unfold PlainText; decide +kernel
theorem mainPlain : ∀ e ∈ mainSubDecl ++ mainListDecl, PlainText e.1 := by unfold PlainText; decide +kernel

theorem condition_writable {ks : SettingsKeys} (h : KeysRegistered ks) : Writable (values ks.condition (List.replicate 7 none)) :=
  values_writable h.condition conditionPlain rfl (by simp [WritableVal])

theorem condition_enum {ks : SettingsKeys} (h : KeysRegistered ks) : EnumDict (values ks.condition (List.replicate 7 none)) :=
  values_enum h.condition (by decide +kernel) _

theorem condition_self {ks : SettingsKeys} (h : KeysRegistered ks) :
    SettingsOf cond (values ks.condition (List.replicate 7 none)) (values ks.condition (List.replicate 7 none)) :=
  values_self h.condition (by intro i v hv; have := List.mem_of_getElem? hv; simp at this)

/-- The settings the factory makes. -/
def fresh (rnd : ℚ → ℚ) (ks : SettingsKeys) : Dict ℚ := .node none (some ks.mainSub)
      [some (values ks.general [none, some (.string "queso_output".toList), some (.index 1), some (.bool true)]),
       some (values ks.grid (List.replicate 7 none)),
       some (values ks.trimmed [some (.double (rnd (1 / 10 ^ 10))), some (.double (rnd (1 / 10 ^ 3))), some (.index 100), some (.bool true), none]),
       some (values ks.nonTrimmed [some (.method 0)])] (some ks.mainList) [[]]

theorem fresh_subs {ks : SettingsKeys} {P : Dict ℚ → Prop}
    (h1 : P (values ks.general [none, some (.string "queso_output".toList), some (.index 1), some (.bool true)]))
    (h2 : P (values ks.grid (List.replicate 7 none)))
    (h3 : P (values ks.trimmed [some (.double (rnd (1 / 10 ^ 10))), some (.double (rnd (1 / 10 ^ 3))), some (.index 100), some (.bool true), none]))
    (h4 : P (values ks.nonTrimmed [some (.method 0)])) :
    ∀ d, some d ∈ [some (values ks.general [none, some (.string "queso_output".toList), some (.index 1), some (.bool true)]),
       some (values ks.grid (List.replicate 7 none)),
       some (values ks.trimmed [some (.double (rnd (1 / 10 ^ 10))), some (.double (rnd (1 / 10 ^ 3))), some (.index 100), some (.bool true), none]),
       some (values ks.nonTrimmed [some (.method 0)])] → P d := by
  intro d hd
  simp only [List.mem_cons, Option.some.injEq, List.not_mem_nil, or_false] at hd
  rcases hd with rfl | rfl | rfl | rfl
  · exact h1
  · exact h2
  · exact h3
  · exact h4

theorem fresh_writable {ks : SettingsKeys} (h : KeysRegistered ks) : Writable (fresh rnd ks) := by
  have hmem : ∀ nm ∈ memberNames none (some ks.mainSub) (some ks.mainList),
      (∃ e ∈ mainSubDecl, e.1 = nm) ∨ ∃ e ∈ mainListDecl, e.1 = nm := by
    intro nm hnm
    simp only [memberNames, Option.map_some, Option.getD_some, Option.map_none, Option.getD_none, List.nil_append, List.map_append,
      List.mem_append, List.mem_map] at hnm
    rcases hnm with ⟨e, he, rfl⟩ | ⟨e, he, rfl⟩
    · exact .inl ⟨_, (registered_mem h.mainSub he).1, rfl⟩
    · exact .inr ⟨_, (registered_mem h.mainList he).1, rfl⟩
  refine .node (by simp) ?_ ?_ (by simp) (by simp) ?_ ?_ (by simp) ?_ (by simp) (by simp)
  · rintro k ⟨⟩; exact ⟨_, h.mainSub, rfl⟩
  · rintro k ⟨⟩; exact ⟨_, h.mainList, rfl⟩
  · simp only [memberNames, Option.map_some, Option.getD_some, Option.map_none, Option.getD_none, List.nil_append, List.map_append]
    rw [List.nodup_append]
    refine ⟨registered_names_nodup h.mainSub, registered_names_nodup h.mainList, ?_⟩
    intro a ha b hb
    obtain ⟨e, he, rfl⟩ := List.mem_map.1 ha
    obtain ⟨f, hf, rfl⟩ := List.mem_map.1 hb
    have key : ∀ x ∈ mainSubDecl, ∀ y ∈ mainListDecl, x.1 ≠ y.1 := by decide +kernel
    exact key _ (registered_mem h.mainSub he).1 _ (registered_mem h.mainList hf).1
  · intro nm hnm
    rcases hmem nm hnm with ⟨e, he, rfl⟩ | ⟨e, he, rfl⟩
    · exact mainPlain e (by simp [he])
    · exact mainPlain e (by simp [he])
  · refine fresh_subs (values_writable h.general generalPlain rfl ?_) (values_writable h.grid gridPlain rfl ?_)
      (values_writable h.trimmed trimmedPlain rfl ?_) (values_writable h.nonTrimmed nonTrimmedPlain rfl ?_)
    · simp only [List.mem_cons, List.not_mem_nil, or_false, forall_eq_or_imp, forall_eq, WritableVal, true_and, and_true]
      decide +kernel
    · simp [WritableVal]
    · simp [WritableVal]
    · simp [WritableVal]

theorem fresh_enum {ks : SettingsKeys} (h : KeysRegistered ks) : EnumDict (fresh rnd ks) :=
  .node (by simp) (fresh_subs (values_enum h.general (by decide +kernel) _) (values_enum h.grid (by decide +kernel) _)
    (values_enum h.trimmed (by decide +kernel) _) (values_enum h.nonTrimmed (by decide +kernel) _)) (by simp)

theorem fresh_self {ks : SettingsKeys} (h : KeysRegistered ks) : SettingsOf cond (fresh rnd ks) (fresh rnd ks) := by
  refine .node trivial rfl (by simp) (by simp) ?_ (by simp) (by simp) (by simp)
  intro i b d hb hd
  rw [hb] at hd
  simp only [Option.some.injEq] at hd
  subst hd
  revert hb
  refine fun hb => fresh_subs (P := fun d => SettingsOf cond d d) (values_self h.general ?_) (values_self h.grid ?_)
    (values_self h.trimmed ?_) (values_self h.nonTrimmed ?_) b (List.mem_of_getElem? hb)
  · intro i v hv x hx
    rcases i with _ | _ | _ | _ | i <;> simp [generalDecl] at hv hx <;> subst hv <;> subst hx <;> rfl
  · intro i v hv; have := List.mem_of_getElem? hv; simp at this
  · intro i v hv x hx
    rcases i with _ | _ | _ | _ | _ | i <;> simp [trimmedDecl] at hv hx <;> subst hv <;> subst hx <;> rfl
  · intro i v hv x hx
    rcases i with _ | i <;> simp [nonTrimmedDecl] at hv hx <;> subst hv <;> subst hx <;> rfl

/-- Dictionaries with values only have no lists to append to. -/
theorem condition_apply {ks : SettingsKeys} (h : KeysRegistered ks) (e : Edit) {d d' : Dict ℚ}
    (hd : SettingsOf (values ks.condition (List.replicate 7 none)) (values ks.condition (List.replicate 7 none)) d)
    (ha : e.apply rnd d = .ok d') : SettingsOf (values ks.condition (List.replicate 7 none)) (values ks.condition (List.replicate 7 none)) d' := by
  cases e with
  | set nm g => exact settingsOf_apply (condition_writable h) _ (condition_writable h) hd (by simp [Edit.appended]) ha
  | append nm c => cases hd; simp [Edit.apply, onList] at ha
  | sub nm e => cases hd; simp [Edit.apply, onSub] at ha
  | entry nm i e => cases hd; simp [Edit.apply, onEntry] at ha

theorem condition_run {ks : SettingsKeys} (h : KeysRegistered ks) (es : List Edit) : ∀ {d d' : Dict ℚ},
    SettingsOf (values ks.condition (List.replicate 7 none)) (values ks.condition (List.replicate 7 none)) d →
    runEdits rnd es d = .ok d' → SettingsOf (values ks.condition (List.replicate 7 none)) (values ks.condition (List.replicate 7 none)) d' := by
  induction es with
  | nil => intro d d' h hr; cases hr; exact h
  | cons e es ih =>
    intro d d' hd hr
    rw [runEdits] at hr
    cases ha : e.apply rnd d with
    | ok d1 => rw [ha] at hr; exact ih (condition_apply h e hd ha) hr
    | error => rw [ha] at hr; exact ih hd hr
    | ub => rw [ha] at hr; cases hr

theorem isCondition_of {ks : SettingsKeys} (h : KeysRegistered ks) {c : Dict ℚ} (hc : IsCondition rnd ks c) :
    SettingsOf (values ks.condition (List.replicate 7 none)) (values ks.condition (List.replicate 7 none)) c := by
  obtain ⟨b, es, hb, hr⟩ := hc
  rw [createCondition_eq h] at hb
  cases hb
  exact condition_run h es (condition_self h) hr

theorem isSettings_of {ks : SettingsKeys} (h : KeysRegistered ks) {d : Dict ℚ} (hd : IsSettings rnd ks d) :
    SettingsOf (values ks.condition (List.replicate 7 none)) (fresh rnd ks) d := by
  obtain ⟨b, es, hb, ha, hr⟩ := hd
  rw [createSettings_eq h] at hb
  cases hb
  exact settingsOf_run (condition_writable h) (fresh_writable h) es (fresh_self h)
    (fun e he c hc => isCondition_of h (ha e he c hc)) hr

end QuESo.Json
