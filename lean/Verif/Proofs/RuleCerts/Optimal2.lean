import Verif.Proofs.RuleCerts.Lagrange

/-! # Certificates of the rules `ggqOptimal` for degree 2 (generated) -/
namespace QuESo.Rules

def cert_Optimal_2_1 : List (Nat × List Int) :=
  [(3, [])]

def cert_Optimal_2_2 : List (Nat × List Int) :=
  [(2, [-1111111111111111]), (3, [])]

def cert_Optimal_2_3 : List (Nat × List Int) :=
  [(2, [-1111111111111114]), (3, [1111111111111108]), (2, [])]

def cert_Optimal_2_4 : List (Nat × List Int) :=
  [(2, [-1111111111111112]), (2, [-1176470588235294]), (3, [1111111111111107]), (2, [])]

def cert_Optimal_2_5 : List (Nat × List Int) :=
  [(2, [-1111111111111112]), (2, [-1176470588235294]), (3, [1176470588235294]), (2, [1111111111111112]), (2, [])]

def cert_Optimal_2_6 : List (Nat × List Int) :=
  [(2, [-1111111111111115]), (2, [-1176470588235294]), (2, [-1178451178451178]), (3, [1176470588235288]), (2, [1111111111111109]), (2, [])]

def cert_Optimal_2_7 : List (Nat × List Int) :=
  [(2, [-1111111111111115]), (2, [-1176470588235296]), (2, [-1178451178451181]), (3, [1178451178451182]), (2, [1176470588235296]), (2, [1111111111111108]), (2, [])]

def cert_Optimal_2_8 : List (Nat × List Int) :=
  [(2, [-1111111111111111]), (2, [-1176470588235294]), (2, [-1178451178451181]), (2, [-1178509532062392]), (3, [1178451178451181]), (2, [1176470588235294]), (2, [1111111111111112]), (2, [])]

def cert_Optimal_2_9 : List (Nat × List Int) :=
  [(2, [-1111111111111113]), (2, [-1176470588235290]), (2, [-1178451178451175]), (2, [-1178509532062392]), (3, [1178509532062383]), (2, [1178451178451175]), (2, [1176470588235290]), (2, [1111111111111103]), (2, [])]

def cert_Optimal_2_10 : List (Nat × List Int) :=
  [(2, [-1111111111111108]), (2, [-1176470588235294]), (2, [-1178451178451177]), (2, [-1178509532062391]), (2, [-1178511249876105]), (3, [1178509532062402]), (2, [1178451178451177]), (2, [1176470588235294]), (2, [1111111111111128]), (2, [])]

def cert_Optimal_2_11 : List (Nat × List Int) :=
  [(2, [-1111111111111111]), (2, [-1176470588235292]), (2, [-1178451178451176]), (2, [-1178509532062396]), (2, [-1178511249876096]), (3, [1178511249876107]), (2, [1178509532062396]), (2, [1178451178451176]), (2, [1176470588235315]), (2, [1111111111111122]), (2, [])]

def cert_Optimal_2_12 : List (Nat × List Int) :=
  [(2, [-1111111111111115]), (2, [-1176470588235294]), (2, [-1178451178451181]), (2, [-1178509532062396]), (2, [-1178511249876110]), (2, [-1178511300443855]), (3, [1178511249876110]), (2, [1178509532062397]), (2, [1178451178451168]), (2, [1176470588235294]), (2, [1111111111111103]), (2, [])]

def cert_Optimal_2_13 : List (Nat × List Int) :=
  [(2, [-1111111111111109]), (2, [-1176470588235292]), (2, [-1178451178451170]), (2, [-1178509532062388]), (2, [-1178511249876108]), (2, [-1178511300443842]), (3, [1178511300443841]), (2, [1178511249876107]), (2, [1178509532062388]), (2, [1178451178451183]), (2, [1176470588235318]), (2, [1111111111111135]), (2, [])]

def cert_Optimal_2_14 : List (Nat × List Int) :=
  [(2, [-1111111111111115]), (2, [-1176470588235296]), (2, [-1178451178451185]), (2, [-1178509532062401]), (2, [-1178511249876107]), (2, [-1178511300443853]), (2, [-1178511301932432]), (3, [1178511300443853]), (2, [1178511249876092]), (2, [1178509532062387]), (2, [1178451178451171]), (2, [1176470588235295]), (2, [1111111111111100]), (2, [])]

def cert_Optimal_2_15 : List (Nat × List Int) :=
  [(2, [-1111111111111112]), (2, [-1176470588235294]), (2, [-1178451178451171]), (2, [-1178509532062401]), (2, [-1178511249876106]), (2, [-1178511300443869]), (2, [-1178511301932424]), (3, [1178511301932424]), (2, [1178511300443838]), (2, [1178511249876091]), (2, [1178509532062386]), (2, [1178451178451171]), (2, [1176470588235294]), (2, [1111111111111112]), (2, [])]

def cert_Optimal_2_16 : List (Nat × List Int) :=
  [(2, [-1111111111111119]), (2, [-1176470588235284]), (2, [-1178451178451181]), (2, [-1178509532062387]), (2, [-1178511249876101]), (2, [-1178511300443852]), (2, [-1178511301932435]), (2, [-1178511301976248]), (3, [1178511301932435]), (2, [1178511300443852]), (2, [1178511249876101]), (2, [1178509532062387]), (2, [1178451178451181]), (2, [1176470588235300]), (2, [1111111111111118]), (2, [])]

def cert_Optimal_2_17 : List (Nat × List Int) :=
  [(2, [-1111111111111115]), (2, [-1176470588235290]), (2, [-1178451178451182]), (2, [-1178509532062388]), (2, [-1178511249876101]), (2, [-1178511300443862]), (2, [-1178511301932445]), (2, [-1178511301976262]), (3, [1178511301976245]), (2, [1178511301932445]), (2, [1178511300443843]), (2, [1178511249876101]), (2, [1178509532062389]), (2, [1178451178451164]), (2, [1176470588235308]), (2, [1111111111111115]), (2, [])]

def cert_Optimal_2_18 : List (Nat × List Int) :=
  [(2, [-1111111111111102]), (2, [-1176470588235300]), (2, [-1178451178451174]), (2, [-1178509532062400]), (2, [-1178511249876099]), (2, [-1178511300443872]), (2, [-1178511301932442]), (2, [-1178511301976252]), (2, [-1178511301977543]), (3, [1178511301976253]), (2, [1178511301932423]), (2, [1178511300443854]), (2, [1178511249876080]), (2, [1178509532062401]), (2, [1178451178451156]), (2, [1176470588235282]), (2, [1111111111111101]), (2, [])]

def cert_Optimal_2_19 : List (Nat × List Int) :=
  [(2, [-1111111111111105]), (2, [-1176470588235294]), (2, [-1178451178451171]), (2, [-1178509532062403]), (2, [-1178511249876110]), (2, [-1178511300443866]), (2, [-1178511301932432]), (2, [-1178511301976244]), (2, [-1178511301977555]), (3, [1178511301977535]), (2, [1178511301976245]), (2, [1178511301932432]), (2, [1178511300443846]), (2, [1178511249876091]), (2, [1178509532062384]), (2, [1178451178451172]), (2, [1176470588235275]), (2, [1111111111111085]), (2, [])]

def cert_Optimal_2_20 : List (Nat × List Int) :=
  [(2, [-1111111111111106]), (2, [-1176470588235295]), (2, [-1178451178451175]), (2, [-1178509532062391]), (2, [-1178511249876100]), (2, [-1178511300443852]), (2, [-1178511301932429]), (2, [-1178511301976243]), (2, [-1178511301977528]), (2, [-1178511301977580]), (3, [1178511301977549]), (2, [1178511301976243]), (2, [1178511301932450]), (2, [1178511300443872]), (2, [1178511249876120]), (2, [1178509532062390]), (2, [1178451178451197]), (2, [1176470588235317]), (2, [1111111111111106]), (2, [])]

def cert_Optimal_2_21 : List (Nat × List Int) :=
  [(2, [-1111111111111113]), (2, [-1176470588235301]), (2, [-1178451178451177]), (2, [-1178509532062404]), (2, [-1178511249876103]), (2, [-1178511300443854]), (2, [-1178511301932451]), (2, [-1178511301976244]), (2, [-1178511301977552]), (2, [-1178511301977582]), (3, [1178511301977561]), (2, [1178511301977530]), (2, [1178511301976245]), (2, [1178511301932430]), (2, [1178511300443832]), (2, [1178511249876103]), (2, [1178509532062382]), (2, [1178451178451178]), (2, [1176470588235302]), (2, [1111111111111092]), (2, [])]

def cert_Optimal_2_22 : List (Nat × List Int) :=
  [(2, [-1111111111111111]), (2, [-1176470588235280]), (2, [-1178451178451185]), (2, [-1178509532062382]), (2, [-1178511249876098]), (2, [-1178511300443856]), (2, [-1178511301932439]), (2, [-1178511301976240]), (2, [-1178511301977533]), (2, [-1178511301977569]), (2, [-1178511301977581]), (3, [1178511301977569]), (2, [1178511301977533]), (2, [1178511301976263]), (2, [1178511301932461]), (2, [1178511300443855]), (2, [1178511249876121]), (2, [1178509532062382]), (2, [1178451178451208]), (2, [1176470588235303]), (2, [1111111111111110]), (2, [])]

def cert_Optimal_2_23 : List (Nat × List Int) :=
  [(2, [-1111111111111099]), (2, [-1176470588235291]), (2, [-1178451178451164]), (2, [-1178509532062404]), (2, [-1178511249876115]), (2, [-1178511300443856]), (2, [-1178511301932442]), (2, [-1178511301976244]), (2, [-1178511301977544]), (2, [-1178511301977572]), (2, [-1178511301977574]), (3, [1178511301977551]), (2, [1178511301977572]), (2, [1178511301977521]), (2, [1178511301976245]), (2, [1178511301932443]), (2, [1178511300443833]), (2, [1178511249876117]), (2, [1178509532062379]), (2, [1178451178451213]), (2, [1176470588235292]), (2, [1111111111111099]), (2, [])]

def cert_Optimal_2_24 : List (Nat × List Int) :=
  [(2, [-1111111111111103]), (2, [-1176470588235294]), (2, [-1178451178451181]), (2, [-1178509532062396]), (2, [-1178511249876107]), (2, [-1178511300443852]), (2, [-1178511301932424]), (2, [-1178511301976241]), (2, [-1178511301977546]), (2, [-1178511301977590]), (2, [-1178511301977582]), (2, [-1178511301977575]), (3, [1178511301977582]), (2, [1178511301977566]), (2, [1178511301977546]), (2, [1178511301976241]), (2, [1178511301932426]), (2, [1178511300443827]), (2, [1178511249876108]), (2, [1178509532062396]), (2, [1178451178451207]), (2, [1176470588235295]), (2, [1111111111111079]), (2, [])]

def cert_Optimal_2 : List (Nat × List (Nat × List Int)) :=
  [(1, cert_Optimal_2_1), (2, cert_Optimal_2_2), (3, cert_Optimal_2_3), (4, cert_Optimal_2_4), (5, cert_Optimal_2_5), (6, cert_Optimal_2_6), (7, cert_Optimal_2_7), (8, cert_Optimal_2_8), (9, cert_Optimal_2_9), (10, cert_Optimal_2_10), (11, cert_Optimal_2_11), (12, cert_Optimal_2_12), (13, cert_Optimal_2_13), (14, cert_Optimal_2_14), (15, cert_Optimal_2_15), (16, cert_Optimal_2_16), (17, cert_Optimal_2_17), (18, cert_Optimal_2_18), (19, cert_Optimal_2_19), (20, cert_Optimal_2_20), (21, cert_Optimal_2_21), (22, cert_Optimal_2_22), (23, cert_Optimal_2_23), (24, cert_Optimal_2_24)]

theorem cert_Optimal_2_1_ok : tableOK 2 .ggqOptimal 4 0 lag4 Tables.S_4_0_precomputed [(1, cert_Optimal_2_1)] = true := by decide +kernel
theorem cert_Optimal_2_2_ok : tableOK 2 .ggqOptimal 4 0 lag4 Tables.S_4_0_precomputed [(2, cert_Optimal_2_2)] = true := by decide +kernel
theorem cert_Optimal_2_3_ok : tableOK 2 .ggqOptimal 4 0 lag4 Tables.S_4_0_precomputed [(3, cert_Optimal_2_3)] = true := by decide +kernel
theorem cert_Optimal_2_4_ok : tableOK 2 .ggqOptimal 4 0 lag4 Tables.S_4_0_precomputed [(4, cert_Optimal_2_4)] = true := by decide +kernel
theorem cert_Optimal_2_5_ok : tableOK 2 .ggqOptimal 4 0 lag4 Tables.S_4_0_precomputed [(5, cert_Optimal_2_5)] = true := by decide +kernel
theorem cert_Optimal_2_6_ok : tableOK 2 .ggqOptimal 4 0 lag4 Tables.S_4_0_precomputed [(6, cert_Optimal_2_6)] = true := by decide +kernel
theorem cert_Optimal_2_7_ok : tableOK 2 .ggqOptimal 4 0 lag4 Tables.S_4_0_precomputed [(7, cert_Optimal_2_7)] = true := by decide +kernel
theorem cert_Optimal_2_8_ok : tableOK 2 .ggqOptimal 4 0 lag4 Tables.S_4_0_precomputed [(8, cert_Optimal_2_8)] = true := by decide +kernel
theorem cert_Optimal_2_9_ok : tableOK 2 .ggqOptimal 4 0 lag4 Tables.S_4_0_precomputed [(9, cert_Optimal_2_9)] = true := by decide +kernel
theorem cert_Optimal_2_10_ok : tableOK 2 .ggqOptimal 4 0 lag4 Tables.S_4_0_precomputed [(10, cert_Optimal_2_10)] = true := by decide +kernel
theorem cert_Optimal_2_11_ok : tableOK 2 .ggqOptimal 4 0 lag4 Tables.S_4_0_precomputed [(11, cert_Optimal_2_11)] = true := by decide +kernel
theorem cert_Optimal_2_12_ok : tableOK 2 .ggqOptimal 4 0 lag4 Tables.S_4_0_precomputed [(12, cert_Optimal_2_12)] = true := by decide +kernel
theorem cert_Optimal_2_13_ok : tableOK 2 .ggqOptimal 4 0 lag4 Tables.S_4_0_precomputed [(13, cert_Optimal_2_13)] = true := by decide +kernel
theorem cert_Optimal_2_14_ok : tableOK 2 .ggqOptimal 4 0 lag4 Tables.S_4_0_precomputed [(14, cert_Optimal_2_14)] = true := by decide +kernel
theorem cert_Optimal_2_15_ok : tableOK 2 .ggqOptimal 4 0 lag4 Tables.S_4_0_precomputed [(15, cert_Optimal_2_15)] = true := by decide +kernel
theorem cert_Optimal_2_16_ok : tableOK 2 .ggqOptimal 4 0 lag4 Tables.S_4_0_precomputed [(16, cert_Optimal_2_16)] = true := by decide +kernel
theorem cert_Optimal_2_17_ok : tableOK 2 .ggqOptimal 4 0 lag4 Tables.S_4_0_precomputed [(17, cert_Optimal_2_17)] = true := by decide +kernel
theorem cert_Optimal_2_18_ok : tableOK 2 .ggqOptimal 4 0 lag4 Tables.S_4_0_precomputed [(18, cert_Optimal_2_18)] = true := by decide +kernel
theorem cert_Optimal_2_19_ok : tableOK 2 .ggqOptimal 4 0 lag4 Tables.S_4_0_precomputed [(19, cert_Optimal_2_19)] = true := by decide +kernel
theorem cert_Optimal_2_20_ok : tableOK 2 .ggqOptimal 4 0 lag4 Tables.S_4_0_precomputed [(20, cert_Optimal_2_20)] = true := by decide +kernel
theorem cert_Optimal_2_21_ok : tableOK 2 .ggqOptimal 4 0 lag4 Tables.S_4_0_precomputed [(21, cert_Optimal_2_21)] = true := by decide +kernel
theorem cert_Optimal_2_22_ok : tableOK 2 .ggqOptimal 4 0 lag4 Tables.S_4_0_precomputed [(22, cert_Optimal_2_22)] = true := by decide +kernel
theorem cert_Optimal_2_23_ok : tableOK 2 .ggqOptimal 4 0 lag4 Tables.S_4_0_precomputed [(23, cert_Optimal_2_23)] = true := by decide +kernel
theorem cert_Optimal_2_24_ok : tableOK 2 .ggqOptimal 4 0 lag4 Tables.S_4_0_precomputed [(24, cert_Optimal_2_24)] = true := by decide +kernel

theorem cert_Optimal_2_ok : tableOK 2 .ggqOptimal 4 0 lag4 Tables.S_4_0_precomputed cert_Optimal_2 = true :=
  tableOK_cons cert_Optimal_2_1_ok (tableOK_cons cert_Optimal_2_2_ok (tableOK_cons cert_Optimal_2_3_ok (tableOK_cons cert_Optimal_2_4_ok (tableOK_cons cert_Optimal_2_5_ok (tableOK_cons cert_Optimal_2_6_ok (tableOK_cons cert_Optimal_2_7_ok (tableOK_cons cert_Optimal_2_8_ok (tableOK_cons cert_Optimal_2_9_ok (tableOK_cons cert_Optimal_2_10_ok (tableOK_cons cert_Optimal_2_11_ok (tableOK_cons cert_Optimal_2_12_ok (tableOK_cons cert_Optimal_2_13_ok (tableOK_cons cert_Optimal_2_14_ok (tableOK_cons cert_Optimal_2_15_ok (tableOK_cons cert_Optimal_2_16_ok (tableOK_cons cert_Optimal_2_17_ok (tableOK_cons cert_Optimal_2_18_ok (tableOK_cons cert_Optimal_2_19_ok (tableOK_cons cert_Optimal_2_20_ok (tableOK_cons cert_Optimal_2_21_ok (tableOK_cons cert_Optimal_2_22_ok (tableOK_cons cert_Optimal_2_23_ok (tableOK_cons cert_Optimal_2_24_ok (rfl))))))))))))))))))))))))

def class_Optimal_2_0 : Cert where
  spA := [(2, [-2222222222222225]), (2, [-2352941176470587]), (2, [-2356902356902357]), (2, [-2357019064124789]), (2, [-2357022499752211]), (2, [-2357022600887717]), (2, [-2357022603864870]), (2, [-2357022603952494]), (2, [-2357022603955078]), (2, [-2357022603955166]), (2, [-2357022603955159])]
  spP := [(2, [-2357022603955159])]
  spC := [(2, [-2357022603955157]), (2, [-2357022603955158]), (3, [2357022603955157]), (2, [2357022603955159])]
  spP' := [(2, [2357022603955159])]
  spA' := [(2, [2357022603955166]), (2, [2357022603955078]), (2, [2357022603952494]), (2, [2357022603864870]), (2, [2357022600887717]), (2, [2357022499752211]), (2, [2357019064124789]), (2, [2356902356902357]), (2, [2352941176470587]), (2, [2222222222222225]), (2, [])]
  lA := [-2357022603955159]
  lC := [2357022603955159]

theorem class_Optimal_2_0_ok : classData 2 .ggqOptimal 4 0 lag4 ((Tables.S_4_0_base_even)[0]!) ((Tables.S_4_0_base_even)[1]!) ((Tables.S_4_0_base_even)[2]!) 11 1 26 class_Optimal_2_0 = true := by decide +kernel

def class_Optimal_2_1 : Cert where
  spA := [(2, [-2222222222222225]), (2, [-2352941176470587]), (2, [-2356902356902357]), (2, [-2357019064124789]), (2, [-2357022499752211]), (2, [-2357022600887717]), (2, [-2357022603864870]), (2, [-2357022603952494]), (2, [-2357022603955078]), (2, [-2357022603955166]), (2, [-2357022603955159])]
  spP := [(2, [-2357022603955159])]
  spC := [(2, [-2357022603955157]), (3, [2357022603955157]), (2, [2357022603955159])]
  spP' := [(2, [2357022603955159])]
  spA' := [(2, [2357022603955166]), (2, [2357022603955078]), (2, [2357022603952494]), (2, [2357022603864870]), (2, [2357022600887717]), (2, [2357022499752211]), (2, [2357019064124789]), (2, [2356902356902357]), (2, [2352941176470587]), (2, [2222222222222225]), (2, [])]
  lA := [-2357022603955159]
  lC := [2357022603955159]

theorem class_Optimal_2_1_ok : classData 2 .ggqOptimal 4 0 lag4 ((Tables.S_4_0_base_odd)[0]!) ((Tables.S_4_0_base_odd)[1]!) ((Tables.S_4_0_base_odd)[2]!) 11 1 25 class_Optimal_2_1 = true := by decide +kernel

/-- Degree 2, `ggqOptimal`: the rule of every number of spans. -/
theorem good_Optimal_2 (e : ℕ) (he : 1 ≤ e) :
    ∃ rule, getGGQ 2 e .ggqOptimal = .ok rule ∧ GoodRule 4 0 e rule := by
  have key : e ∈ [1, 2, 3, 4, 5, 6, 7, 8, 9, 10, 11, 12, 13, 14, 15, 16, 17, 18, 19, 20, 21, 22, 23, 24] ∨ (26 ≤ e ∧ e % 2 = 0) ∨ (25 ≤ e ∧ e % 2 = 1) := by
    rcases Nat.lt_or_ge e 27 with h | h
    · have : ∀ e < 27, 1 ≤ e → (e ∈ [1, 2, 3, 4, 5, 6, 7, 8, 9, 10, 11, 12, 13, 14, 15, 16, 17, 18, 19, 20, 21, 22, 23, 24] ∨ (26 ≤ e ∧ e % 2 = 0) ∨ (25 ≤ e ∧ e % 2 = 1)) := by decide +kernel
      exact this e h he
    · omega
  rcases key with h | ⟨h1, h2⟩ | ⟨h1, h2⟩
  · exact table_good lag4_ok (by norm_num) rfl cert_Optimal_2_ok (by simpa [cert_Optimal_2] using h)
  · have := class_good lag4_ok class_Optimal_2_0_ok ((e - 26) / 2)
    rwa [show 26 + 2 * 1 * ((e - 26) / 2) = e by omega] at this
  · have := class_good lag4_ok class_Optimal_2_1_ok ((e - 25) / 2)
    rwa [show 25 + 2 * 1 * ((e - 25) / 2) = e by omega] at this

end QuESo.Rules
