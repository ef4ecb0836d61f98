import Verif.Proofs.RuleCerts.Lagrange

/-! # Certificates of the rules `ggqReduced1` for degree 2 (generated) -/
namespace QuESo.Rules

def cert_Reduced1_2_1 : List (Nat × List Int) :=
  [(2, [])]

def cert_Reduced1_2_2 : List (Nat × List Int) :=
  [(2, [0]), (2, [])]

def cert_Reduced1_2_4 : List (Nat × List Int) :=
  [(2, [1666666666666666]), (1, [-1666666666666666]), (2, [-1666666666666670]), (2, [])]

def cert_Reduced1_2 : List (Nat × List (Nat × List Int)) :=
  [(1, cert_Reduced1_2_1), (2, cert_Reduced1_2_2), (4, cert_Reduced1_2_4)]

theorem cert_Reduced1_2_1_ok : tableOK 2 .ggqReduced1 3 0 lag3 Tables.S_3_0_precomputed [(1, cert_Reduced1_2_1)] = true := by decide +kernel
theorem cert_Reduced1_2_2_ok : tableOK 2 .ggqReduced1 3 0 lag3 Tables.S_3_0_precomputed [(2, cert_Reduced1_2_2)] = true := by decide +kernel
theorem cert_Reduced1_2_4_ok : tableOK 2 .ggqReduced1 3 0 lag3 Tables.S_3_0_precomputed [(4, cert_Reduced1_2_4)] = true := by decide +kernel

theorem cert_Reduced1_2_ok : tableOK 2 .ggqReduced1 3 0 lag3 Tables.S_3_0_precomputed cert_Reduced1_2 = true :=
  tableOK_cons cert_Reduced1_2_1_ok (tableOK_cons cert_Reduced1_2_2_ok (tableOK_cons cert_Reduced1_2_4_ok (rfl)))

def class_Reduced1_2_0 : Cert where
  spA := [(2, [3333333333333332])]
  spP := [(1, [-3333333333333334]), (2, [3333333333333332])]
  spC := [(1, [-3333333333333334]), (2, [3333333333333332]), (1, [-3333333333333333]), (2, [-3333333333333332]), (2, [3333333333333334]), (1, [-3333333333333332])]
  spP' := [(2, [3333333333333334]), (1, [-3333333333333332])]
  spA' := [(2, [])]
  lA := [3333333333333332]
  lC := [-3333333333333332]

theorem class_Reduced1_2_0_ok : classData 2 .ggqReduced1 3 0 lag3 ((Tables.S_3_0_base_odd)[0]!) ((Tables.S_3_0_base_odd)[1]!) ((Tables.S_3_0_base_odd)[2]!) 1 2 8 class_Reduced1_2_0 = true := by decide +kernel

def class_Reduced1_2_1 : Cert where
  spA := [(2, [3333333333333332])]
  spP := [(1, [-3333333333333334]), (2, [3333333333333332])]
  spC := [(1, [-3333333333333334]), (2, [3333333333333334]), (1, [-3333333333333332])]
  spP' := [(2, [3333333333333334]), (1, [-3333333333333332])]
  spA' := [(2, [])]
  lA := [3333333333333332]
  lC := [-3333333333333332]

theorem class_Reduced1_2_1_ok : classData 2 .ggqReduced1 3 0 lag3 ((Tables.S_3_0_base_even)[0]!) ((Tables.S_3_0_base_even)[1]!) ((Tables.S_3_0_base_even)[2]!) 1 2 5 class_Reduced1_2_1 = true := by decide +kernel

def class_Reduced1_2_2 : Cert where
  spA := [(2, [3333333333333332])]
  spP := [(1, [-3333333333333334]), (2, [3333333333333332])]
  spC := [(1, [-3333333333333330]), (2, [0]), (2, [3333333333333330]), (1, [-3333333333333332])]
  spP' := [(2, [3333333333333334]), (1, [-3333333333333332])]
  spA' := [(2, [])]
  lA := [3333333333333332]
  lC := [-3333333333333332]

theorem class_Reduced1_2_2_ok : classData 2 .ggqReduced1 3 0 lag3 ((Tables.S_3_0_base_even)[0]!) ((Tables.S_3_0_base_even)[1]!) ((Tables.S_3_0_base_even)[2]!) 1 2 6 class_Reduced1_2_2 = true := by decide +kernel

def class_Reduced1_2_3 : Cert where
  spA := [(2, [3333333333333332])]
  spP := [(1, [-3333333333333334]), (2, [3333333333333332])]
  spC := [(1, [-3333333333333332])]
  spP' := [(2, [3333333333333334]), (1, [-3333333333333332])]
  spA' := [(2, [])]
  lA := [3333333333333332]
  lC := [-3333333333333332]

theorem class_Reduced1_2_3_ok : classData 2 .ggqReduced1 3 0 lag3 ((Tables.S_3_0_base_odd)[0]!) ((Tables.S_3_0_base_odd)[1]!) ((Tables.S_3_0_base_odd)[2]!) 1 2 3 class_Reduced1_2_3 = true := by decide +kernel

/-- Degree 2, `ggqReduced1`: the rule of every number of spans. -/
theorem good_Reduced1_2 (e : ℕ) (he : 1 ≤ e) :
    ∃ rule, getGGQ 2 e .ggqReduced1 = .ok rule ∧ GoodRule 3 0 e rule := by
  have key : e ∈ [1, 2, 4] ∨ (8 ≤ e ∧ e % 4 = 0) ∨ (5 ≤ e ∧ e % 4 = 1) ∨ (6 ≤ e ∧ e % 4 = 2) ∨ (3 ≤ e ∧ e % 4 = 3) := by
    rcases Nat.lt_or_ge e 9 with h | h
    · have : ∀ e < 9, 1 ≤ e → (e ∈ [1, 2, 4] ∨ (8 ≤ e ∧ e % 4 = 0) ∨ (5 ≤ e ∧ e % 4 = 1) ∨ (6 ≤ e ∧ e % 4 = 2) ∨ (3 ≤ e ∧ e % 4 = 3)) := by decide +kernel
      exact this e h he
    · omega
  rcases key with h | ⟨h1, h2⟩ | ⟨h1, h2⟩ | ⟨h1, h2⟩ | ⟨h1, h2⟩
  · exact table_good lag3_ok (by norm_num) rfl cert_Reduced1_2_ok (by simpa [cert_Reduced1_2] using h)
  · have := class_good lag3_ok class_Reduced1_2_0_ok ((e - 8) / 4)
    rwa [show 8 + 2 * 2 * ((e - 8) / 4) = e by omega] at this
  · have := class_good lag3_ok class_Reduced1_2_1_ok ((e - 5) / 4)
    rwa [show 5 + 2 * 2 * ((e - 5) / 4) = e by omega] at this
  · have := class_good lag3_ok class_Reduced1_2_2_ok ((e - 6) / 4)
    rwa [show 6 + 2 * 2 * ((e - 6) / 4) = e by omega] at this
  · have := class_good lag3_ok class_Reduced1_2_3_ok ((e - 3) / 4)
    rwa [show 3 + 2 * 2 * ((e - 3) / 4) = e by omega] at this

end QuESo.Rules
