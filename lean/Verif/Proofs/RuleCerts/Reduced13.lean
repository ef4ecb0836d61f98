import Verif.Proofs.RuleCerts.Lagrange

/-! # Certificates of the rules `ggqReduced1` for degree 3 (generated) -/
namespace QuESo.Rules

def cert_Reduced1_3_1 : List (Nat × List Int) :=
  [(3, [])]

def cert_Reduced1_3_2 : List (Nat × List Int) :=
  [(2, [-2129629629629630, 138888888888889]), (3, [])]

def cert_Reduced1_3_3 : List (Nat × List Int) :=
  [(2, [-2129629629629632, 138888888888889]), (3, [2129629629629625, 138888888888888]), (2, [])]

def cert_Reduced1_3_4 : List (Nat × List Int) :=
  [(2, [-2129629629629631, 138888888888889]), (2, [-2332065218886300, 166485703944988]), (3, [2129629629629621, 138888888888888]), (2, [])]

def cert_Reduced1_3_5 : List (Nat × List Int) :=
  [(2, [-2129629629629632, 138888888888889]), (2, [-2332065218886302, 166485703944988]), (3, [2332065218886301, 166485703944988]), (2, [2129629629629620, 138888888888889]), (2, [])]

def cert_Reduced1_3_6 : List (Nat × List Int) :=
  [(2, [-2129629629629635, 138888888888890]), (2, [-2332065218886305, 166485703944988]), (2, [-2333333284185102, 166666659645529]), (3, [2332065218886304, 166485703944988]), (2, [2129629629629621, 138888888888888]), (2, [])]

def cert_Reduced1_3_7 : List (Nat × List Int) :=
  [(2, [-2129629629629625, 138888888888888]), (2, [-2332065218886293, 166485703944987]), (2, [-2333333284185109, 166666659645531]), (3, [2333333284185109, 166666659645531]), (2, [2332065218886292, 166485703944988]), (2, [2129629629629609, 138888888888887]), (2, [])]

def cert_Reduced1_3 : List (Nat × List (Nat × List Int)) :=
  [(1, cert_Reduced1_3_1), (2, cert_Reduced1_3_2), (3, cert_Reduced1_3_3), (4, cert_Reduced1_3_4), (5, cert_Reduced1_3_5), (6, cert_Reduced1_3_6), (7, cert_Reduced1_3_7)]

theorem cert_Reduced1_3_1_ok : tableOK 3 .ggqReduced1 5 1 lag5 Tables.S_5_1_precomputed [(1, cert_Reduced1_3_1)] = true := by decide +kernel
theorem cert_Reduced1_3_2_ok : tableOK 3 .ggqReduced1 5 1 lag5 Tables.S_5_1_precomputed [(2, cert_Reduced1_3_2)] = true := by decide +kernel
theorem cert_Reduced1_3_3_ok : tableOK 3 .ggqReduced1 5 1 lag5 Tables.S_5_1_precomputed [(3, cert_Reduced1_3_3)] = true := by decide +kernel
theorem cert_Reduced1_3_4_ok : tableOK 3 .ggqReduced1 5 1 lag5 Tables.S_5_1_precomputed [(4, cert_Reduced1_3_4)] = true := by decide +kernel
theorem cert_Reduced1_3_5_ok : tableOK 3 .ggqReduced1 5 1 lag5 Tables.S_5_1_precomputed [(5, cert_Reduced1_3_5)] = true := by decide +kernel
theorem cert_Reduced1_3_6_ok : tableOK 3 .ggqReduced1 5 1 lag5 Tables.S_5_1_precomputed [(6, cert_Reduced1_3_6)] = true := by decide +kernel
theorem cert_Reduced1_3_7_ok : tableOK 3 .ggqReduced1 5 1 lag5 Tables.S_5_1_precomputed [(7, cert_Reduced1_3_7)] = true := by decide +kernel

theorem cert_Reduced1_3_ok : tableOK 3 .ggqReduced1 5 1 lag5 Tables.S_5_1_precomputed cert_Reduced1_3 = true :=
  tableOK_cons cert_Reduced1_3_1_ok (tableOK_cons cert_Reduced1_3_2_ok (tableOK_cons cert_Reduced1_3_3_ok (tableOK_cons cert_Reduced1_3_4_ok (tableOK_cons cert_Reduced1_3_5_ok (tableOK_cons cert_Reduced1_3_6_ok (tableOK_cons cert_Reduced1_3_7_ok (rfl)))))))

def direct_Reduced1_3_8 : List (Nat × List Int) :=
  [(2, [-4259259259259265, 277777777777778]), (2, [-4664130437772606, 332971407889975]), (2, [-4666666568370207, 333333319291059]), (2, [-4666666666666666, 333333333333333]), (3, [4666666568370207, 333333319291059]), (2, [4664130437772606, 332971407889975]), (2, [4259259259259265, 277777777777778]), (2, [])]

theorem direct_Reduced1_3_8_ok : directData 3 .ggqReduced1 5 1 lag5 ((Tables.S_5_1_base_odd)[0]!) ((Tables.S_5_1_base_odd)[1]!) ((Tables.S_5_1_base_odd)[2]!) 4 1 8 direct_Reduced1_3_8 = true := by decide +kernel

def class_Reduced1_3_0 : Cert where
  spA := [(2, [-4259259259259265, 277777777777778]), (2, [-4664130437772606, 332971407889975]), (2, [-4666666568370208, 333333319291059]), (2, [-4666666666666666, 333333333333333])]
  spP := [(2, [-4666666666666666, 333333333333333])]
  spC := [(2, [-4666666666666666, 333333333333333]), (3, [4666666666666666, 333333333333333])]
  spP' := [(2, [4666666666666666, 333333333333333])]
  spA' := [(2, [4666666568370208, 333333319291059]), (2, [4664130437772606, 332971407889975]), (2, [4259259259259265, 277777777777778]), (2, [])]
  lA := [-4666666666666666, 333333333333333]
  lC := [4666666666666666, 333333333333333]

theorem class_Reduced1_3_0_ok : classData 3 .ggqReduced1 5 1 lag5 ((Tables.S_5_1_base_odd)[0]!) ((Tables.S_5_1_base_odd)[1]!) ((Tables.S_5_1_base_odd)[2]!) 4 1 10 class_Reduced1_3_0 = true := by decide +kernel

def class_Reduced1_3_1 : Cert where
  spA := [(2, [-4259259259259265, 277777777777778]), (2, [-4664130437772606, 332971407889975]), (2, [-4666666568370208, 333333319291059]), (2, [-4666666666666666, 333333333333333])]
  spP := [(2, [-4666666666666666, 333333333333333])]
  spC := [(3, [4666666666666666, 333333333333333])]
  spP' := [(2, [4666666666666666, 333333333333333])]
  spA' := [(2, [4666666568370208, 333333319291059]), (2, [4664130437772606, 332971407889975]), (2, [4259259259259265, 277777777777778]), (2, [])]
  lA := [-4666666666666666, 333333333333333]
  lC := [4666666666666666, 333333333333333]

theorem class_Reduced1_3_1_ok : classData 3 .ggqReduced1 5 1 lag5 ((Tables.S_5_1_base_odd)[0]!) ((Tables.S_5_1_base_odd)[1]!) ((Tables.S_5_1_base_odd)[2]!) 4 1 9 class_Reduced1_3_1 = true := by decide +kernel

/-- Degree 3, `ggqReduced1`: the rule of every number of spans. -/
theorem good_Reduced1_3 (e : ℕ) (he : 1 ≤ e) :
    ∃ rule, getGGQ 3 e .ggqReduced1 = .ok rule ∧ GoodRule 5 1 e rule := by
  have key : e ∈ [1, 2, 3, 4, 5, 6, 7] ∨ e = 8 ∨ (10 ≤ e ∧ e % 2 = 0) ∨ (9 ≤ e ∧ e % 2 = 1) := by
    rcases Nat.lt_or_ge e 11 with h | h
    · have : ∀ e < 11, 1 ≤ e → (e ∈ [1, 2, 3, 4, 5, 6, 7] ∨ e = 8 ∨ (10 ≤ e ∧ e % 2 = 0) ∨ (9 ≤ e ∧ e % 2 = 1)) := by decide +kernel
      exact this e h he
    · omega
  rcases key with h | rfl | ⟨h1, h2⟩ | ⟨h1, h2⟩
  · exact table_good lag5_ok (by norm_num) rfl cert_Reduced1_3_ok (by simpa [cert_Reduced1_3] using h)
  · exact direct_good lag5_ok direct_Reduced1_3_8_ok
  · have := class_good lag5_ok class_Reduced1_3_0_ok ((e - 10) / 2)
    rwa [show 10 + 2 * 1 * ((e - 10) / 2) = e by omega] at this
  · have := class_good lag5_ok class_Reduced1_3_1_ok ((e - 9) / 2)
    rwa [show 9 + 2 * 1 * ((e - 9) / 2) = e by omega] at this

end QuESo.Rules
