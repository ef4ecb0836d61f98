import Verif.Proofs.RuleCerts.Lagrange

/-! # Certificates of the rules `ggqOptimal` for degree 3 (generated) -/
namespace QuESo.Rules

def cert_Optimal_3_1 : List (Nat × List Int) :=
  [(4, [])]

def cert_Optimal_3_2 : List (Nat × List Int) :=
  [(3, [0, -38675134594813]), (3, [])]

def cert_Optimal_3_3 : List (Nat × List Int) :=
  [(3, [-116407185256728, -31874251794618]), (3, [116407185256726, -31874251794618]), (3, [])]

def cert_Optimal_3_4 : List (Nat × List Int) :=
  [(3, [46641964389269, -41355565382991]), (2, [-1740649567751134, 90867869610364]), (3, [-46641964389269, -41355565382991]), (3, [])]

def cert_Optimal_3_5 : List (Nat × List Int) :=
  [(3, [44855789985030, -41253371367327]), (3, [1370370370370378, 55555555555556]), (2, [-1370370370370369, 55555555555555]), (3, [-44855789985028, -41253371367327]), (3, [])]

def cert_Optimal_3_6 : List (Nat × List Int) :=
  [(3, [46641964389269, -41355565382991]), (2, [-1740649567751129, 90867869610364]), (3, [0, -44260719549914]), (3, [1740649567751129, 90867869610363]), (2, [-46641964389270, -41355565382990]), (3, [])]

def cert_Optimal_3_7 : List (Nat × List Int) :=
  [(3, [46640789855021, -41355498195076]), (3, [1730826464486726, 89851273624885]), (2, [-161907055973470, -34064963498404]), (3, [161907055973470, -34064963498404]), (2, [-1730826464486726, 89851273624886]), (3, [-46640789855023, -41355498195075]), (3, [])]

def cert_Optimal_3_8 : List (Nat × List Int) :=
  [(3, [46641964389270, -41355565382991]), (2, [-1740649567751145, 90867869610365]), (3, [160944128, -44260729531108]), (2, [-1744294347122836, 91246380537482]), (3, [-160944128, -44260729531108]), (3, [1740649567751145, 90867869610365]), (2, [-46641964389270, -41355565382992]), (3, [])]

def cert_Optimal_3_9 : List (Nat × List Int) :=
  [(3, [46641964389269, -41355565382991]), (2, [-1740649567751142, 90867869610364]), (3, [-1813384182422, -44148240915572]), (3, [1370370370370364, 55555555555554]), (2, [-1370370370370381, 55555555555557]), (3, [1813384182421, -44148240915574]), (3, [1740649567751120, 90867869610363]), (2, [-46641964389271, -41355565382990]), (3, [])]

def cert_Optimal_3_10 : List (Nat × List Int) :=
  [(3, [46641964389270, -41355565382991]), (2, [-1740649567751149, 90867869610364]), (3, [160944130, -44260729531108]), (2, [-1744294347122851, 91246380537483]), (3, [1, -44260739512438]), (3, [1744294347122852, 91246380537483]), (2, [-160944126, -44260729531108]), (3, [1740649567751150, 90867869610365]), (2, [-46641964389266, -41355565382992]), (3, [])]

def cert_Optimal_3_11 : List (Nat × List Int) :=
  [(3, [46641964389270, -41355565382992]), (2, [-1740649567751142, 90867869610364]), (3, [-2037839334, -44260593170189]), (3, [1730826464486749, 89851273624887]), (2, [-161907055973468, -34064963498405]), (3, [161907055973471, -34064963498403]), (2, [-1730826464486695, 89851273624883]), (3, [2037839333, -44260593170191]), (3, [1740649567751116, 90867869610363]), (2, [-46641964389267, -41355565382991]), (3, [])]

def cert_Optimal_3_13 : List (Nat × List Int) :=
  [(3, [46641964389268, -41355565382990]), (2, [-1740649567751134, 90867869610363]), (3, [160711939, -44260729516709]), (3, [1744155896019716, 91231989307514]), (2, [-1813533239145, -44148250121225]), (3, [1370370370370387, 55555555555558]), (2, [-1370370370370362, 55555555555553]), (3, [1813533239149, -44148250121223]), (2, [-1744155896019683, 91231989307512]), (3, [-160711939, -44260729516708]), (3, [1740649567751167, 90867869610366]), (2, [-46641964389269, -41355565382992]), (3, [])]

def cert_Optimal_3_15 : List (Nat × List Int) :=
  [(3, [46641964389269, -41355565382991]), (2, [-1740649567751132, 90867869610364]), (3, [160944127, -44260729531109]), (3, [1744294191678563, 91246364379327]), (2, [-2198772657, -44260603150320]), (3, [1730826464486733, 89851273624886]), (2, [-161907055973470, -34064963498404]), (3, [161907055973464, -34064963498403]), (2, [-1730826464486733, 89851273624885]), (3, [2198772659, -44260603150319]), (2, [-1744294191678563, 91246364379327]), (3, [-160944127, -44260729531109]), (3, [1740649567751132, 90867869610364]), (2, [-46641964389269, -41355565382991]), (3, [])]

def cert_Optimal_3_17 : List (Nat × List Int) :=
  [(3, [46641964389270, -41355565382991]), (2, [-1740649567751158, 90867869610365]), (3, [160944129, -44260729531108]), (2, [-1744294347122830, 91246380537482]), (3, [-232228, -44260739498037]), (3, [1744155896019696, 91231989307512]), (2, [-1813533239147, -44148250121224]), (3, [1370370370370391, 55555555555556]), (2, [-1370370370370391, 55555555555556]), (3, [1813533239149, -44148250121223]), (2, [-1744155896019695, 91231989307512]), (3, [232228, -44260739498038]), (3, [1744294347122830, 91246380537483]), (2, [-160944128, -44260729531108]), (3, [1740649567751115, 90867869610363]), (2, [-46641964389271, -41355565382992]), (3, [])]

def cert_Optimal_3_19 : List (Nat × List Int) :=
  [(3, [46641964389271, -41355565382991]), (2, [-1740649567751127, 90867869610364]), (3, [160944128, -44260729531109]), (2, [-1744294347122859, 91246380537484]), (3, [-3, -44260739512438]), (3, [1744294191678585, 91246364379328]), (2, [-2198772660, -44260603150321]), (3, [1730826464486722, 89851273624885]), (2, [-161907055973473, -34064963498403]), (3, [161907055973462, -34064963498405]), (2, [-1730826464486721, 89851273624885]), (3, [2198772657, -44260603150320]), (2, [-1744294191678539, 91246364379325]), (3, [-2, -44260739512441]), (3, [1744294347122813, 91246380537481]), (2, [-160944129, -44260729531106]), (3, [1740649567751174, 90867869610366]), (2, [-46641964389273, -41355565382991]), (3, [])]

def cert_Optimal_3_21 : List (Nat × List Int) :=
  [(3, [46641964389267, -41355565382991]), (2, [-1740649567751140, 90867869610364]), (3, [160944127, -44260729531109]), (2, [-1744294347122859, 91246380537483]), (3, [1, -44260739512439]), (3, [1744294359381835, 91246381811783]), (2, [-232230, -44260739498036]), (3, [1744155896019709, 91231989307514]), (2, [-1813533239150, -44148250121224]), (3, [1370370370370360, 55555555555554]), (2, [-1370370370370398, 55555555555559]), (3, [1813533239147, -44148250121223]), (2, [-1744155896019710, 91231989307514]), (3, [232229, -44260739498038]), (2, [-1744294359381835, 91246381811785]), (3, [0, -44260739512441]), (3, [1744294347122753, 91246380537476]), (2, [-160944127, -44260729531107]), (3, [1740649567751139, 90867869610362]), (2, [-46641964389269, -41355565382990]), (3, [])]

def cert_Optimal_3 : List (Nat × List (Nat × List Int)) :=
  [(1, cert_Optimal_3_1), (2, cert_Optimal_3_2), (3, cert_Optimal_3_3), (4, cert_Optimal_3_4), (5, cert_Optimal_3_5), (6, cert_Optimal_3_6), (7, cert_Optimal_3_7), (8, cert_Optimal_3_8), (9, cert_Optimal_3_9), (10, cert_Optimal_3_10), (11, cert_Optimal_3_11), (13, cert_Optimal_3_13), (15, cert_Optimal_3_15), (17, cert_Optimal_3_17), (19, cert_Optimal_3_19), (21, cert_Optimal_3_21)]

theorem cert_Optimal_3_1_ok : tableOK 3 .ggqOptimal 6 1 lag6 Tables.S_6_1_precomputed [(1, cert_Optimal_3_1)] = true := by decide +kernel
theorem cert_Optimal_3_2_ok : tableOK 3 .ggqOptimal 6 1 lag6 Tables.S_6_1_precomputed [(2, cert_Optimal_3_2)] = true := by decide +kernel
theorem cert_Optimal_3_3_ok : tableOK 3 .ggqOptimal 6 1 lag6 Tables.S_6_1_precomputed [(3, cert_Optimal_3_3)] = true := by decide +kernel
theorem cert_Optimal_3_4_ok : tableOK 3 .ggqOptimal 6 1 lag6 Tables.S_6_1_precomputed [(4, cert_Optimal_3_4)] = true := by decide +kernel
theorem cert_Optimal_3_5_ok : tableOK 3 .ggqOptimal 6 1 lag6 Tables.S_6_1_precomputed [(5, cert_Optimal_3_5)] = true := by decide +kernel
theorem cert_Optimal_3_6_ok : tableOK 3 .ggqOptimal 6 1 lag6 Tables.S_6_1_precomputed [(6, cert_Optimal_3_6)] = true := by decide +kernel
theorem cert_Optimal_3_7_ok : tableOK 3 .ggqOptimal 6 1 lag6 Tables.S_6_1_precomputed [(7, cert_Optimal_3_7)] = true := by decide +kernel
theorem cert_Optimal_3_8_ok : tableOK 3 .ggqOptimal 6 1 lag6 Tables.S_6_1_precomputed [(8, cert_Optimal_3_8)] = true := by decide +kernel
theorem cert_Optimal_3_9_ok : tableOK 3 .ggqOptimal 6 1 lag6 Tables.S_6_1_precomputed [(9, cert_Optimal_3_9)] = true := by decide +kernel
theorem cert_Optimal_3_10_ok : tableOK 3 .ggqOptimal 6 1 lag6 Tables.S_6_1_precomputed [(10, cert_Optimal_3_10)] = true := by decide +kernel
theorem cert_Optimal_3_11_ok : tableOK 3 .ggqOptimal 6 1 lag6 Tables.S_6_1_precomputed [(11, cert_Optimal_3_11)] = true := by decide +kernel
theorem cert_Optimal_3_13_ok : tableOK 3 .ggqOptimal 6 1 lag6 Tables.S_6_1_precomputed [(13, cert_Optimal_3_13)] = true := by decide +kernel
theorem cert_Optimal_3_15_ok : tableOK 3 .ggqOptimal 6 1 lag6 Tables.S_6_1_precomputed [(15, cert_Optimal_3_15)] = true := by decide +kernel
theorem cert_Optimal_3_17_ok : tableOK 3 .ggqOptimal 6 1 lag6 Tables.S_6_1_precomputed [(17, cert_Optimal_3_17)] = true := by decide +kernel
theorem cert_Optimal_3_19_ok : tableOK 3 .ggqOptimal 6 1 lag6 Tables.S_6_1_precomputed [(19, cert_Optimal_3_19)] = true := by decide +kernel
theorem cert_Optimal_3_21_ok : tableOK 3 .ggqOptimal 6 1 lag6 Tables.S_6_1_precomputed [(21, cert_Optimal_3_21)] = true := by decide +kernel

theorem cert_Optimal_3_ok : tableOK 3 .ggqOptimal 6 1 lag6 Tables.S_6_1_precomputed cert_Optimal_3 = true :=
  tableOK_cons cert_Optimal_3_1_ok (tableOK_cons cert_Optimal_3_2_ok (tableOK_cons cert_Optimal_3_3_ok (tableOK_cons cert_Optimal_3_4_ok (tableOK_cons cert_Optimal_3_5_ok (tableOK_cons cert_Optimal_3_6_ok (tableOK_cons cert_Optimal_3_7_ok (tableOK_cons cert_Optimal_3_8_ok (tableOK_cons cert_Optimal_3_9_ok (tableOK_cons cert_Optimal_3_10_ok (tableOK_cons cert_Optimal_3_11_ok (tableOK_cons cert_Optimal_3_13_ok (tableOK_cons cert_Optimal_3_15_ok (tableOK_cons cert_Optimal_3_17_ok (tableOK_cons cert_Optimal_3_19_ok (tableOK_cons cert_Optimal_3_21_ok (rfl))))))))))))))))

def direct_Optimal_3_12 : List (Nat × List Int) :=
  [(3, [93283928778538, -82711130765982]), (2, [-3481299135502279, 181735739220728]), (3, [321888257, -88521459062217]), (2, [-3488588694245691, 182492761074966]), (3, [0, -88521479024878]), (2, [-3488588718799080, 182492763627247]), (3, [0, -88521479024878]), (3, [3488588694245691, 182492761074966]), (2, [-321888257, -88521459062217]), (3, [3481299135502279, 181735739220728]), (2, [-93283928778538, -82711130765982]), (3, [])]

theorem direct_Optimal_3_12_ok : directData 3 .ggqOptimal 6 1 lag6 ((Tables.S_6_1_base_odd)[0]!) ((Tables.S_6_1_base_odd)[1]!) ((Tables.S_6_1_base_odd)[2]!) 6 2 12 direct_Optimal_3_12 = true := by decide +kernel

def class_Optimal_3_0 : Cert where
  spA := [(3, [93283928778538, -82711130765982]), (2, [-3481299135502279, 181735739220728]), (3, [321888257, -88521459062217]), (2, [-3488588694245691, 182492761074966]), (3, [0, -88521479024878]), (2, [-3488588718799080, 182492763627248])]
  spP := [(3, [0, -88521479024879]), (2, [-3488588718799080, 182492763627248])]
  spC := [(3, [0, -88521479024879]), (2, [-3488588718799080, 182492763627248]), (3, [0, -88521479024879]), (3, [3488588718799080, 182492763627248])]
  spP' := [(2, [0, -88521479024879]), (3, [3488588718799080, 182492763627248])]
  spA' := [(2, [0, -88521479024878]), (3, [3488588694245691, 182492761074966]), (2, [-321888257, -88521459062217]), (3, [3481299135502279, 181735739220728]), (2, [-93283928778538, -82711130765982]), (3, [])]
  lA := [-3488588718799080, 182492763627248]
  lC := [3488588718799080, 182492763627248]

theorem class_Optimal_3_0_ok : classData 3 .ggqOptimal 6 1 lag6 ((Tables.S_6_1_base_odd)[0]!) ((Tables.S_6_1_base_odd)[1]!) ((Tables.S_6_1_base_odd)[2]!) 6 2 16 class_Optimal_3_0 = true := by decide +kernel

def class_Optimal_3_1 : Cert where
  spA := [(3, [93283928778538, -82711130765982]), (2, [-3481299135502279, 181735739220728]), (3, [321888257, -88521459062217]), (2, [-3488588694245691, 182492761074966]), (3, [0, -88521479024878]), (2, [-3488588718799080, 182492763627248])]
  spP := [(3, [0, -88521479024879]), (2, [-3488588718799080, 182492763627248])]
  spC := [(3, [0, -88521479024878]), (3, [3488588718763667, 182492763623566]), (2, [-464459, -88521478996075]), (3, [3488311792039406, 182463978615027]), (2, [-3627066478293, -88296500242448]), (3, [2740740740740740, 111111111111111]), (2, [-2740740740740740, 111111111111111]), (3, [3627066478293, -88296500242448]), (2, [-3488311792039406, 182463978615027]), (3, [464459, -88521478996075]), (2, [-3488588718763667, 182492763623566]), (3, [0, -88521479024878]), (3, [3488588718799080, 182492763627248])]
  spP' := [(2, [0, -88521479024879]), (3, [3488588718799080, 182492763627248])]
  spA' := [(2, [0, -88521479024878]), (3, [3488588694245691, 182492761074966]), (2, [-321888257, -88521459062217]), (3, [3481299135502279, 181735739220728]), (2, [-93283928778538, -82711130765982]), (3, [])]
  lA := [-3488588718799080, 182492763627248]
  lC := [3488588718799080, 182492763627248]

theorem class_Optimal_3_1_ok : classData 3 .ggqOptimal 6 1 lag6 ((Tables.S_6_1_base_even)[0]!) ((Tables.S_6_1_base_even)[1]!) ((Tables.S_6_1_base_even)[2]!) 6 2 25 class_Optimal_3_1 = true := by decide +kernel

def class_Optimal_3_2 : Cert where
  spA := [(3, [93283928778538, -82711130765982]), (2, [-3481299135502279, 181735739220728]), (3, [321888257, -88521459062217]), (2, [-3488588694245691, 182492761074966]), (3, [0, -88521479024878]), (2, [-3488588718799080, 182492763627248])]
  spP := [(3, [0, -88521479024879]), (2, [-3488588718799080, 182492763627248])]
  spC := [(3, [0, -88521479024879]), (3, [3488588718799080, 182492763627248])]
  spP' := [(2, [0, -88521479024879]), (3, [3488588718799080, 182492763627248])]
  spA' := [(2, [0, -88521479024878]), (3, [3488588694245691, 182492761074966]), (2, [-321888257, -88521459062217]), (3, [3481299135502279, 181735739220728]), (2, [-93283928778538, -82711130765982]), (3, [])]
  lA := [-3488588718799080, 182492763627248]
  lC := [3488588718799080, 182492763627248]

theorem class_Optimal_3_2_ok : classData 3 .ggqOptimal 6 1 lag6 ((Tables.S_6_1_base_even)[0]!) ((Tables.S_6_1_base_even)[1]!) ((Tables.S_6_1_base_even)[2]!) 6 2 14 class_Optimal_3_2 = true := by decide +kernel

def class_Optimal_3_3 : Cert where
  spA := [(3, [93283928778538, -82711130765982]), (2, [-3481299135502279, 181735739220728]), (3, [321888257, -88521459062217]), (2, [-3488588694245691, 182492761074966]), (3, [0, -88521479024878]), (2, [-3488588718799080, 182492763627248])]
  spP := [(3, [0, -88521479024879]), (2, [-3488588718799080, 182492763627248])]
  spC := [(3, [-2, -88521479024879]), (3, [3488588383357137, 182492728758654]), (2, [-4397545318, -88521206300640]), (3, [3461652928973464, 179702547249772]), (2, [-323814111946939, -68129926996808]), (3, [323814111946939, -68129926996808]), (2, [-3461652928973464, 179702547249772]), (3, [4397545318, -88521206300640]), (2, [-3488588383357137, 182492728758654]), (3, [2, -88521479024879]), (3, [3488588718799080, 182492763627248])]
  spP' := [(2, [0, -88521479024879]), (3, [3488588718799080, 182492763627248])]
  spA' := [(2, [0, -88521479024878]), (3, [3488588694245691, 182492761074966]), (2, [-321888257, -88521459062217]), (3, [3481299135502279, 181735739220728]), (2, [-93283928778538, -82711130765982]), (3, [])]
  lA := [-3488588718799080, 182492763627248]
  lC := [3488588718799080, 182492763627248]

theorem class_Optimal_3_3_ok : classData 3 .ggqOptimal 6 1 lag6 ((Tables.S_6_1_base_odd)[0]!) ((Tables.S_6_1_base_odd)[1]!) ((Tables.S_6_1_base_odd)[2]!) 6 2 23 class_Optimal_3_3 = true := by decide +kernel

/-- Degree 3, `ggqOptimal`: the rule of every number of spans. -/
theorem good_Optimal_3 (e : ℕ) (he : 1 ≤ e) :
    ∃ rule, getGGQ 3 e .ggqOptimal = .ok rule ∧ GoodRule 6 1 e rule := by
  have key : e ∈ [1, 2, 3, 4, 5, 6, 7, 8, 9, 10, 11, 13, 15, 17, 19, 21] ∨ e = 12 ∨ (16 ≤ e ∧ e % 4 = 0) ∨ (25 ≤ e ∧ e % 4 = 1) ∨ (14 ≤ e ∧ e % 4 = 2) ∨ (23 ≤ e ∧ e % 4 = 3) := by
    rcases Nat.lt_or_ge e 26 with h | h
    · have : ∀ e < 26, 1 ≤ e → (e ∈ [1, 2, 3, 4, 5, 6, 7, 8, 9, 10, 11, 13, 15, 17, 19, 21] ∨ e = 12 ∨ (16 ≤ e ∧ e % 4 = 0) ∨ (25 ≤ e ∧ e % 4 = 1) ∨ (14 ≤ e ∧ e % 4 = 2) ∨ (23 ≤ e ∧ e % 4 = 3)) := by decide +kernel
      exact this e h he
    · omega
  rcases key with h | rfl | ⟨h1, h2⟩ | ⟨h1, h2⟩ | ⟨h1, h2⟩ | ⟨h1, h2⟩
  · exact table_good lag6_ok (by norm_num) rfl cert_Optimal_3_ok (by simpa [cert_Optimal_3] using h)
  · exact direct_good lag6_ok direct_Optimal_3_12_ok
  · have := class_good lag6_ok class_Optimal_3_0_ok ((e - 16) / 4)
    rwa [show 16 + 2 * 2 * ((e - 16) / 4) = e by omega] at this
  · have := class_good lag6_ok class_Optimal_3_1_ok ((e - 25) / 4)
    rwa [show 25 + 2 * 2 * ((e - 25) / 4) = e by omega] at this
  · have := class_good lag6_ok class_Optimal_3_2_ok ((e - 14) / 4)
    rwa [show 14 + 2 * 2 * ((e - 14) / 4) = e by omega] at this
  · have := class_good lag6_ok class_Optimal_3_3_ok ((e - 23) / 4)
    rwa [show 23 + 2 * 2 * ((e - 23) / 4) = e by omega] at this

end QuESo.Rules
