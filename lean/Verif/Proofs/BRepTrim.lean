import Verif.Spec.Trim
import Mathlib.Tactic.Linarith
import Mathlib.Tactic.Ring
import Mathlib.Tactic.NormNum

namespace QuESo.BRep
open QuESo.AABBTree QuESo.GQ QuESo.Spec
variable {K : Type} [Field K] [LinearOrder K] [IsStrictOrderedRing K] {D : Type}

/-- The attempts that were made so far and the state. -/
structure TInv (trial : V3 K → V3 K → Bool → Except Fault (Option (Trial K D))) (volume minRatio snap : K) (lo up : V3 K)
    (tr : List (Attempt K D)) (iteration : Nat) (s : TrimState K D) : Prop where
  len : tr.length + 2 = 2 * iteration + (if s.switch then 1 else 0)
  iter : iteration ≤ 15
  sw : s.switch = true → iteration ≤ 14
  ran : ∀ a ∈ tr, trial a.lower a.upper a.switch = .ok a.found
  alt : ∀ k, ∀ h : k < tr.length, tr[k].switch = decide (k % 2 = 1)
  grown : ∀ a ∈ tr, Grown lo up a.lower a.upper (1300 * snap)
  box : Grown lo up s.lower s.upper (100 * snap * ((iteration : K) - 1))
  none_good : ∀ a ∈ tr, ∀ t, a.found = some t → ¬ t.epsilon < 1 / 100000
  best : (s.best = none ∧ s.bestError = 1 / 2 ∧ ∀ a ∈ tr, ∀ t, a.found = some t → t.volume / volume > minRatio → 1 / 2 ≤ t.epsilon) ∨
    ∃ t, IsBest volume minRatio tr t ∧ s.best = some t.domain ∧ s.bestError = t.epsilon

theorem grown_mono {lo up lower upper : V3 K} {d e : K} (h : Grown lo up lower upper d) (hde : d ≤ e) : Grown lo up lower upper e := by
  obtain ⟨⟨⟨a1, a2⟩, ⟨a3, a4⟩, a5, a6⟩, ⟨b1, b2⟩, ⟨b3, b4⟩, b5, b6⟩ := h
  refine ⟨⟨⟨?_, a2⟩, ⟨?_, a4⟩, ?_, a6⟩, ⟨b1, ?_⟩, ⟨b3, ?_⟩, b5, ?_⟩ <;> linarith

theorem grown_perturb {lo up : V3 K} {s : TrimState K D} {d snap : K} (hs : 0 ≤ snap) {rl ru : V3 K} (hl : Rand rl) (hu : Rand ru)
    (h : Grown lo up s.lower s.upper d) : Grown lo up (perturb snap rl ru s).lower (perturb snap rl ru s).upper (d + 100 * snap) := by
  obtain ⟨⟨⟨a1, a2⟩, ⟨a3, a4⟩, a5, a6⟩, ⟨b1, b2⟩, ⟨b3, b4⟩, b5, b6⟩ := h
  obtain ⟨⟨l1, l2⟩, ⟨l3, l4⟩, l5, l6⟩ := hl
  obtain ⟨⟨u1, u2⟩, ⟨u3, u4⟩, u5, u6⟩ := hu
  have nn : ∀ {r : K}, 0 ≤ r → 0 ≤ r * snap := fun h => mul_nonneg h hs
  have le : ∀ {r : K}, r ≤ 100 → r * snap ≤ 100 * snap := fun h => mul_le_mul_of_nonneg_right h hs
  have := nn l1; have := nn l3; have := nn l5; have := nn u1; have := nn u3; have := nn u5
  have := le l2; have := le l4; have := le l6; have := le u2; have := le u4; have := le u6
  simp only [BRep.perturb]
  refine ⟨⟨⟨?_, ?_⟩, ⟨?_, ?_⟩, ?_, ?_⟩, ⟨?_, ?_⟩, ⟨?_, ?_⟩, ?_, ?_⟩ <;>
    simp only [V3.sub_x, V3.sub_y, V3.sub_z, V3.add_x, V3.add_y, V3.add_z] <;> linarith

omit [IsStrictOrderedRing K] in
theorem examine_inl {volume minRatio snap : K} {rl ru : V3 K} {t : Trial K D} {s : TrimState K D} {r : Option D}
    (h : examine volume minRatio snap rl ru t s = .inl r) :
    t.epsilon < 1 / 100000 ∧ r = if t.volume / volume > minRatio then some t.domain else none := by
  unfold examine at h
  split at h
  · rename_i hlt
    simp only [Sum.inl.injEq] at h
    exact ⟨hlt, h.symm⟩
  · cases h

omit [IsStrictOrderedRing K] in
theorem examine_inr {volume minRatio snap : K} {rl ru : V3 K} {t : Trial K D} {s s1 : TrimState K D}
    (h : examine volume minRatio snap rl ru t s = .inr s1) :
    ¬ t.epsilon < 1 / 100000 ∧ s1.switch = s.switch ∧
    (if t.epsilon < s.bestError ∧ t.volume / volume > minRatio then s1.best = some t.domain ∧ s1.bestError = t.epsilon
      else s1.best = s.best ∧ s1.bestError = s.bestError) ∧
    ((s.switch = false ∧ s1.lower = s.lower ∧ s1.upper = s.upper) ∨
      (s.switch = true ∧ s1.lower = (perturb snap rl ru s).lower ∧ s1.upper = (perturb snap rl ru s).upper)) := by
  unfold examine at h
  split at h
  · cases h
  · rename_i hlt
    simp only [Sum.inr.injEq] at h
    subst h
    refine ⟨hlt, ?_, ?_, ?_⟩ <;> by_cases hc : t.epsilon < s.bestError ∧ t.volume / volume > minRatio <;> cases hs : s.switch <;>
      simp [hc, hs, perturb]

theorem trimLoop_spec (trial : V3 K → V3 K → Bool → Except Fault (Option (Trial K D)))
    (htrial : ∀ l u s, ∃ x, trial l u s = .ok x) (volume minRatio snap : K) (hs : 0 ≤ snap) (rl ru : Nat → V3 K) (hrl : ∀ n, Rand (rl n))
    (hru : ∀ n, Rand (ru n)) (neglect : Bool) (lo up : V3 K) : ∀ (fuel iteration : Nat) (s : TrimState K D) (tr : List (Attempt K D)),
    TInv trial volume minRatio snap lo up tr iteration s → 1 ≤ iteration → 28 < tr.length + fuel →
    ∃ res tr', trimLoop trial volume minRatio snap rl ru neglect fuel iteration s = .ok res ∧ tr <+: tr' ∧ tr'.length ≤ 28 ∧
      (∀ a ∈ tr', trial a.lower a.upper a.switch = .ok a.found) ∧ (∀ k, ∀ h : k < tr'.length, tr'[k].switch = decide (k % 2 = 1)) ∧
      (∀ a ∈ tr', Grown lo up a.lower a.upper (1300 * snap)) ∧ Outcome volume minRatio neglect tr' res
  | 0, iteration, s, tr, I, h1, hf => by
    have hl := I.len
    have := I.iter
    have hw := I.sw
    cases hsw : s.switch
    · rw [hsw] at hl; simp at hl; omega
    · rw [hsw] at hl; simp at hl; have := hw hsw; omega
  | fuel + 1, iteration, s, tr, I, h1, hf => by
    rw [trimLoop]
    split
    · rename_i hit
      obtain ⟨found, hfound⟩ := htrial s.lower s.upper s.switch
      simp only [hfound]
      have hitK : (iteration : K) ≤ 14 := by exact_mod_cast (show iteration ≤ 14 by omega)
      have hb14 : Grown lo up s.lower s.upper (1300 * snap) := grown_mono I.box (by nlinarith)
      have hlen' := I.len
      -- properties of the extended list of attempts
      have ran' : ∀ a ∈ tr ++ [⟨s.lower, s.upper, s.switch, found⟩], trial a.lower a.upper a.switch = .ok a.found := by
        intro a ha
        rcases List.mem_append.1 ha with ha | ha
        · exact I.ran a ha
        · rw [List.mem_singleton.1 ha]; exact hfound
      have alt' : ∀ k, ∀ h : k < (tr ++ [(⟨s.lower, s.upper, s.switch, found⟩ : Attempt K D)]).length,
          (tr ++ [(⟨s.lower, s.upper, s.switch, found⟩ : Attempt K D)])[k].switch = decide (k % 2 = 1) := by
        intro k hk
        by_cases hk' : k < tr.length
        · rw [List.getElem_append_left hk']; exact I.alt k hk'
        · have hke : k = tr.length := by simp at hk; omega
          subst hke
          rw [List.getElem_append_right (by omega)]
          simp only [Nat.sub_self, List.getElem_cons_zero]
          cases hsw : s.switch
          · rw [hsw] at hlen'; simp at hlen'; simp; omega
          · rw [hsw] at hlen'; simp at hlen'; simp; omega
      have grown' : ∀ a ∈ tr ++ [(⟨s.lower, s.upper, s.switch, found⟩ : Attempt K D)], Grown lo up a.lower a.upper (1300 * snap) := by
        intro a ha
        rcases List.mem_append.1 ha with ha | ha
        · exact I.grown a ha
        · rw [List.mem_singleton.1 ha]; exact hb14
      have lt28 : tr.length < 28 := by split at hlen' <;> omega
      -- continuation
      have cont : ∀ s1 : TrimState K D, s1.switch = s.switch →
          (∀ t, found = some t → ¬ t.epsilon < 1 / 100000) →
          Grown lo up s1.lower s1.upper (100 * snap * ((iteration : K) - 1) + if s.switch then 100 * snap else 0) →
          ((s1.best = none ∧ s1.bestError = 1 / 2 ∧ ∀ a ∈ tr ++ [(⟨s.lower, s.upper, s.switch, found⟩ : Attempt K D)], ∀ t, a.found = some t →
              t.volume / volume > minRatio → 1 / 2 ≤ t.epsilon) ∨
            ∃ t, IsBest volume minRatio (tr ++ [(⟨s.lower, s.upper, s.switch, found⟩ : Attempt K D)]) t ∧ s1.best = some t.domain ∧ s1.bestError = t.epsilon) →
          ∃ res tr', (if s1.switch then trimLoop trial volume minRatio snap rl ru neglect fuel (iteration + 1) { s1 with switch := false }
            else trimLoop trial volume minRatio snap rl ru neglect fuel iteration { s1 with switch := true }) = .ok res ∧ tr <+: tr' ∧ tr'.length ≤ 28 ∧
            (∀ a ∈ tr', trial a.lower a.upper a.switch = .ok a.found) ∧ (∀ k, ∀ h : k < tr'.length, tr'[k].switch = decide (k % 2 = 1)) ∧
            (∀ a ∈ tr', Grown lo up a.lower a.upper (1300 * snap)) ∧ Outcome volume minRatio neglect tr' res := by
        intro s1 hsw hng hgr hbest
        have ng' : ∀ a ∈ tr ++ [(⟨s.lower, s.upper, s.switch, found⟩ : Attempt K D)], ∀ t, a.found = some t → ¬ t.epsilon < 1 / 100000 := by
          intro a ha t ht
          rcases List.mem_append.1 ha with ha | ha
          · exact I.none_good a ha t ht
          · rw [List.mem_singleton.1 ha] at ht; exact hng t ht
        split
        · rename_i hsw1
          rw [hsw1] at hsw
          rw [← hsw] at hlen' hgr
          simp only [if_true] at hlen' hgr
          obtain ⟨res, tr', g1, g2, g3⟩ := trimLoop_spec trial htrial volume minRatio snap hs rl ru hrl hru neglect lo up fuel (iteration + 1)
            { s1 with switch := false } (tr ++ [(⟨s.lower, s.upper, s.switch, found⟩ : Attempt K D)])
            ⟨by simp; omega, by omega, by simp, ran', alt', grown', by push_cast; exact grown_mono hgr (by ring_nf; exact le_rfl), ng', hbest⟩ (by omega) (by simp; omega)
          exact ⟨res, tr', g1, (List.prefix_append _ _).trans g2, g3⟩
        · rename_i hsw1
          rw [Bool.not_eq_true] at hsw1
          rw [hsw1] at hsw
          rw [← hsw] at hlen' hgr
          simp only [Bool.false_eq_true, if_false, Nat.add_zero, add_zero] at hlen' hgr
          obtain ⟨res, tr', g1, g2, g3⟩ := trimLoop_spec trial htrial volume minRatio snap hs rl ru hrl hru neglect lo up fuel iteration
            { s1 with switch := true } (tr ++ [(⟨s.lower, s.upper, s.switch, found⟩ : Attempt K D)])
            ⟨by simp; omega, I.iter, fun _ => by omega, ran', alt', grown', hgr, ng', hbest⟩ (by omega) (by simp; omega)
          exact ⟨res, tr', g1, (List.prefix_append _ _).trans g2, g3⟩
      cases hfd : found with
      | none =>
        simp only
        refine cont s rfl (by simp [hfd]) (grown_mono I.box (by split <;> linarith [mul_nonneg (show (0 : K) ≤ 100 by norm_num) hs])) ?_
        rcases I.best with ⟨b1, b2, b3⟩ | ⟨t, ⟨⟨a, ha, e⟩, b2, b3, b4⟩, b5⟩
        · refine Or.inl ⟨b1, b2, fun a ha t ht => ?_⟩
          rcases List.mem_append.1 ha with ha | ha
          · exact b3 a ha t ht
          · rw [List.mem_singleton.1 ha] at ht; simp [hfd] at ht
        · refine Or.inr ⟨t, ⟨⟨a, List.mem_append_left _ ha, e⟩, b2, b3, fun a ha t ht => ?_⟩, b5⟩
          rcases List.mem_append.1 ha with ha | ha
          · exact b4 a ha t ht
          · rw [List.mem_singleton.1 ha] at ht; simp [hfd] at ht
      | some t0 =>
        simp only
        cases hex : examine volume minRatio snap (rl iteration) (ru iteration) t0 s with
        | inl r =>
          obtain ⟨e1, e2⟩ := examine_inl hex
          simp only
          subst hfd
          refine ⟨r, tr ++ [⟨s.lower, s.upper, s.switch, some t0⟩], rfl, List.prefix_append _ _, by simp; omega, ran', alt', grown',
            Or.inl ⟨tr, _, t0, rfl, rfl, e1, I.none_good, e2⟩⟩
        | inr s1 =>
          obtain ⟨e1, e2, e3, e4⟩ := examine_inr hex
          simp only
          refine cont s1 e2 (fun t ht => by rw [hfd] at ht; cases ht; exact e1) ?_ ?_
          · rcases e4 with ⟨k1, k2, k3⟩ | ⟨k1, k2, k3⟩
            · rw [k1, k2, k3]; simpa using I.box
            · rw [k1, k2, k3]; simpa using grown_perturb hs (hrl iteration) (hru iteration) I.box
          · split at e3
            · rename_i hc
              refine Or.inr ⟨t0, ⟨⟨_, List.mem_append_right _ (List.mem_singleton.2 rfl), hfd⟩, hc.2, ?_, fun a ha t ht hv => ?_⟩, e3⟩
              · rcases I.best with ⟨b1, b2, b3⟩ | ⟨t, ⟨⟨a, ha, e⟩, b2, b3, b4⟩, b5, b6⟩
                · rw [b2] at hc; exact hc.1
                · rw [b6] at hc; exact hc.1.trans b3
              · rcases List.mem_append.1 ha with ha | ha
                · rcases I.best with ⟨b1, b2, b3⟩ | ⟨t', ⟨⟨a', ha', e⟩, b2, b3, b4⟩, b5, b6⟩
                  · rw [b2] at hc; exact hc.1.le.trans (b3 a ha t ht hv)
                  · rw [b6] at hc; exact hc.1.le.trans (b4 a ha t ht hv)
                · rw [List.mem_singleton.1 ha] at ht
                  rw [hfd] at ht; cases ht; exact le_rfl
            · rename_i hc
              rcases I.best with ⟨b1, b2, b3⟩ | ⟨t', ⟨⟨a', ha', e⟩, b2, b3, b4⟩, b5, b6⟩
              · refine Or.inl ⟨e3.1.trans b1, e3.2.trans b2, fun a ha t ht hv => ?_⟩
                rcases List.mem_append.1 ha with ha | ha
                · exact b3 a ha t ht hv
                · rw [List.mem_singleton.1 ha] at ht
                  rw [hfd] at ht; cases ht
                  rw [b2] at hc
                  by_contra hn
                  exact hc ⟨not_le.1 hn, hv⟩
              · refine Or.inr ⟨t', ⟨⟨a', List.mem_append_left _ ha', e⟩, b2, b3, fun a ha t ht hv => ?_⟩, e3.1.trans b5, e3.2.trans b6⟩
                rcases List.mem_append.1 ha with ha | ha
                · exact b4 a ha t ht hv
                · rw [List.mem_singleton.1 ha] at ht
                  rw [hfd] at ht; cases ht
                  rw [b6] at hc
                  by_contra hn
                  exact hc ⟨not_le.1 hn, hv⟩
    · rename_i hit
      have hi15 : iteration = 15 := by have := I.iter; omega
      have hlen := I.len
      have hsw : s.switch = false := by
        cases hsw : s.switch
        · rfl
        · have := I.sw hsw; omega
      rw [hsw] at hlen
      simp only [Bool.false_eq_true, if_false, Nat.add_zero] at hlen
      refine ⟨_, tr, rfl, List.prefix_refl _, by omega, I.ran, I.alt, I.grown, Or.inr ⟨by omega, I.none_good, ?_⟩⟩
      unfold conclude
      rcases I.best with ⟨b1, b2, b3⟩ | ⟨t, b, b5, b6⟩
      · refine Or.inl ⟨?_, fun a ha t ht hv => Or.inl (b3 a ha t ht hv)⟩
        split
        · rfl
        · exact b1
      · split
        · rename_i hc
          rw [b6] at hc
          refine Or.inl ⟨rfl, fun a ha t' ht hv => Or.inr ⟨hc.2, hc.1.trans_le (b.2.2.2 a ha t' ht hv)⟩⟩
        · rename_i hc
          rw [b6] at hc
          refine Or.inr ⟨t, b, b5, fun hn => ?_⟩
          by_contra hlt
          exact hc ⟨not_le.1 hlt, hn⟩

end QuESo.BRep
