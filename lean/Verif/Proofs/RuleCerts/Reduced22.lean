import Verif.Proofs.RuleCerts.Lagrange

/-! # Certificates of the rules `ggqReduced2` for degree 2 (generated) -/
namespace QuESo.Rules

def cert_Reduced2_2_1 : List (Nat × List Int) :=
  [(2, [])]

def cert_Reduced2_2_2 : List (Nat × List Int) :=
  [(1, [-2499999999999997]), (2, [])]

def cert_Reduced2_2_3 : List (Nat × List Int) :=
  [(1, [-2499999999999999]), (2, [2500000000000002]), (1, [])]

def cert_Reduced2_2_4 : List (Nat × List Int) :=
  [(1, [-2499999999999998]), (1, [-2857142857142852]), (2, [2499999999999998]), (1, [])]

def cert_Reduced2_2_5 : List (Nat × List Int) :=
  [(1, [-2500000000000003]), (1, [-2857142857142857]), (2, [2857142857142861]), (1, [2499999999999998]), (1, [])]

def cert_Reduced2_2_6 : List (Nat × List Int) :=
  [(1, [-2500000000000000]), (1, [-2857142857142851]), (1, [-2884615384615377]), (2, [2857142857142857]), (1, [2500000000000000]), (1, [])]

def cert_Reduced2_2_7 : List (Nat × List Int) :=
  [(1, [-2500000000000001]), (1, [-2857142857142851]), (1, [-2884615384615379]), (2, [2884615384615384]), (1, [2857142857142851]), (1, [2500000000000001]), (1, [])]

def cert_Reduced2_2_8 : List (Nat × List Int) :=
  [(1, [-2499999999999993]), (1, [-2857142857142846]), (1, [-2884615384615380]), (1, [-2886597938144324]), (2, [2884615384615379]), (1, [2857142857142855]), (1, [2499999999999984]), (1, [])]

def cert_Reduced2_2_9 : List (Nat × List Int) :=
  [(1, [-2499999999999996]), (1, [-2857142857142856]), (1, [-2884615384615383]), (1, [-2886597938144326]), (2, [2886597938144326]), (1, [2884615384615384]), (1, [2857142857142846]), (1, [2499999999999997]), (1, [])]

def cert_Reduced2_2_10 : List (Nat × List Int) :=
  [(1, [-2500000000000005]), (1, [-2857142857142856]), (1, [-2884615384615390]), (1, [-2886597938144325]), (1, [-2886740331491706]), (2, [2886597938144335]), (1, [2884615384615389]), (1, [2857142857142866]), (1, [2500000000000015]), (1, [])]

def cert_Reduced2_2_11 : List (Nat × List Int) :=
  [(1, [-2500000000000005]), (1, [-2857142857142850]), (1, [-2884615384615382]), (1, [-2886597938144324]), (1, [-2886740331491706]), (2, [2886740331491706]), (1, [2886597938144336]), (1, [2884615384615382]), (1, [2857142857142861]), (1, [2500000000000015]), (1, [])]

def cert_Reduced2_2_12 : List (Nat × List Int) :=
  [(1, [-2500000000000005]), (1, [-2857142857142850]), (1, [-2884615384615399]), (1, [-2886597938144335]), (1, [-2886740331491724]), (1, [-2886750555144317]), (2, [2886740331491710]), (1, [2886597938144347]), (1, [2884615384615412]), (1, [2857142857142849]), (1, [2500000000000017]), (1, [])]

def cert_Reduced2_2_13 : List (Nat × List Int) :=
  [(1, [-2499999999999990]), (1, [-2857142857142851]), (1, [-2884615384615368]), (1, [-2886597938144328]), (1, [-2886740331491726]), (1, [-2886750555144329]), (2, [2886750555144330]), (1, [2886740331491712]), (1, [2886597938144327]), (1, [2884615384615382]), (1, [2857142857142850]), (1, [2500000000000007]), (1, [])]

def cert_Reduced2_2_14 : List (Nat × List Int) :=
  [(1, [-2499999999999983]), (1, [-2857142857142842]), (1, [-2884615384615381]), (1, [-2886597938144324]), (1, [-2886740331491705]), (1, [-2886750555144339]), (1, [-2886751289170945]), (2, [2886750555144339]), (1, [2886740331491705]), (1, [2886597938144324]), (1, [2884615384615380]), (1, [2857142857142856]), (1, [2499999999999999]), (1, [])]

def cert_Reduced2_2_15 : List (Nat × List Int) :=
  [(1, [-2499999999999999]), (1, [-2857142857142854]), (1, [-2884615384615372]), (1, [-2886597938144324]), (1, [-2886740331491707]), (1, [-2886750555144331]), (1, [-2886751289170964]), (2, [2886751289170964]), (1, [2886750555144331]), (1, [2886740331491707]), (1, [2886597938144323]), (1, [2884615384615387]), (1, [2857142857142870]), (1, [2499999999999997]), (1, [])]

def cert_Reduced2_2_16 : List (Nat × List Int) :=
  [(1, [-2500000000000003]), (1, [-2857142857142868]), (1, [-2884615384615391]), (1, [-2886597938144353]), (1, [-2886740331491718]), (1, [-2886750555144348]), (1, [-2886751289170959]), (1, [-2886751341871688]), (2, [2886751289170959]), (1, [2886750555144349]), (1, [2886740331491700]), (1, [2886597938144353]), (1, [2884615384615392]), (1, [2857142857142850]), (1, [2500000000000021]), (1, [])]

def cert_Reduced2_2_17 : List (Nat × List Int) :=
  [(1, [-2500000000000018]), (1, [-2857142857142857]), (1, [-2884615384615392]), (1, [-2886597938144335]), (1, [-2886740331491699]), (1, [-2886750555144351]), (1, [-2886751289170953]), (1, [-2886751341871712]), (2, [2886751341871698]), (1, [2886751289170953]), (1, [2886750555144350]), (1, [2886740331491719]), (1, [2886597938144317]), (1, [2884615384615392]), (1, [2857142857142858]), (1, [2500000000000001]), (1, [])]

def cert_Reduced2_2_18 : List (Nat × List Int) :=
  [(1, [-2499999999999991]), (1, [-2857142857142857]), (1, [-2884615384615379]), (1, [-2886597938144322]), (1, [-2886740331491700]), (1, [-2886750555144338]), (1, [-2886751289170969]), (1, [-2886751341871728]), (1, [-2886751345655438]), (2, [2886751341871709]), (1, [2886751289170969]), (1, [2886750555144336]), (1, [2886740331491719]), (1, [2886597938144321]), (1, [2884615384615397]), (1, [2857142857142875]), (1, [2500000000000009]), (1, [])]

def cert_Reduced2_2_19 : List (Nat × List Int) :=
  [(1, [-2500000000000012]), (1, [-2857142857142836]), (1, [-2884615384615389]), (1, [-2886597938144322]), (1, [-2886740331491710]), (1, [-2886750555144347]), (1, [-2886751289170953]), (1, [-2886751341871705]), (1, [-2886751345655451]), (2, [2886751345655465]), (1, [2886751341871725]), (1, [2886751289170953]), (1, [2886750555144345]), (1, [2886740331491728]), (1, [2886597938144365]), (1, [2884615384615368]), (1, [2857142857142836]), (1, [2500000000000009]), (1, [])]

def cert_Reduced2_2_20 : List (Nat × List Int) :=
  [(1, [-2499999999999985]), (1, [-2857142857142884]), (1, [-2884615384615375]), (1, [-2886597938144313]), (1, [-2886740331491704]), (1, [-2886750555144340]), (1, [-2886751289170966]), (1, [-2886751341871732]), (1, [-2886751345655471]), (1, [-2886751345927100]), (2, [2886751345655472]), (1, [2886751341871711]), (1, [2886751289170966]), (1, [2886750555144338]), (1, [2886740331491724]), (1, [2886597938144334]), (1, [2884615384615376]), (1, [2857142857142861]), (1, [2500000000000005]), (1, [])]

def cert_Reduced2_2_21 : List (Nat × List Int) :=
  [(1, [-2500000000000002]), (1, [-2857142857142870]), (1, [-2884615384615381]), (1, [-2886597938144321]), (1, [-2886740331491710]), (1, [-2886750555144334]), (1, [-2886751289170967]), (1, [-2886751341871704]), (1, [-2886751345655441]), (1, [-2886751345927110]), (2, [2886751345927110]), (1, [2886751345655441]), (1, [2886751341871704]), (1, [2886751289170967]), (1, [2886750555144334]), (1, [2886740331491708]), (1, [2886597938144344]), (1, [2884615384615382]), (1, [2857142857142848]), (1, [2499999999999983]), (1, [])]

def cert_Reduced2_2_22 : List (Nat × List Int) :=
  [(1, [-2499999999999989]), (1, [-2857142857142885]), (1, [-2884615384615385]), (1, [-2886597938144342]), (1, [-2886740331491708]), (1, [-2886750555144329]), (1, [-2886751289170955]), (1, [-2886751341871685]), (1, [-2886751345655444]), (1, [-2886751345927098]), (1, [-2886751345946576]), (2, [2886751345927073]), (1, [2886751345655466]), (1, [2886751341871709]), (1, [2886751289170953]), (1, [2886750555144353]), (1, [2886740331491708]), (1, [2886597938144342]), (1, [2884615384615387]), (1, [2857142857142861]), (1, [2499999999999991]), (1, [])]

def cert_Reduced2_2_23 : List (Nat × List Int) :=
  [(1, [-2499999999999974]), (1, [-2857142857142831]), (1, [-2884615384615371]), (1, [-2886597938144318]), (1, [-2886740331491704]), (1, [-2886750555144279]), (1, [-2886751289170948]), (1, [-2886751341871677]), (1, [-2886751345655455]), (1, [-2886751345927118]), (1, [-2886751345946627]), (2, [2886751345946643]), (1, [2886751345927143]), (1, [2886751345655455]), (1, [2886751341871675]), (1, [2886751289170973]), (1, [2886750555144279]), (1, [2886740331491704]), (1, [2886597938144317]), (1, [2884615384615394]), (1, [2857142857142854]), (1, [2499999999999998]), (1, [])]

def cert_Reduced2_2_24 : List (Nat × List Int) :=
  [(1, [-2499999999999986]), (1, [-2857142857142850]), (1, [-2884615384615373]), (1, [-2886597938144332]), (1, [-2886740331491722]), (1, [-2886750555144343]), (1, [-2886751289170952]), (1, [-2886751341871710]), (1, [-2886751345655454]), (1, [-2886751345927132]), (1, [-2886751345946609]), (1, [-2886751345947984]), (2, [2886751345946609]), (1, [2886751345927132]), (1, [2886751345655452]), (1, [2886751341871734]), (1, [2886751289170978]), (1, [2886750555144343]), (1, [2886740331491722]), (1, [2886597938144332]), (1, [2884615384615371]), (1, [2857142857142875]), (1, [2500000000000010]), (1, [])]

def cert_Reduced2_2_25 : List (Nat × List Int) :=
  [(1, [-2499999999999973]), (1, [-2857142857142856]), (1, [-2884615384615365]), (1, [-2886597938144342]), (1, [-2886740331491707]), (1, [-2886750555144343]), (1, [-2886751289170981]), (1, [-2886751341871702]), (1, [-2886751345655450]), (1, [-2886751345927120]), (1, [-2886751345946621]), (1, [-2886751345947990]), (2, [2886751345948008]), (1, [2886751345946650]), (1, [2886751345927091]), (1, [2886751345655475]), (1, [2886751341871731]), (1, [2886751289170954]), (1, [2886750555144343]), (1, [2886740331491709]), (1, [2886597938144313]), (1, [2884615384615392]), (1, [2857142857142854]), (1, [2500000000000001]), (1, [])]

def cert_Reduced2_2_26 : List (Nat × List Int) :=
  [(1, [-2500000000000017]), (1, [-2857142857142875]), (1, [-2884615384615401]), (1, [-2886597938144332]), (1, [-2886740331491708]), (1, [-2886750555144328]), (1, [-2886751289170975]), (1, [-2886751341871707]), (1, [-2886751345655460]), (1, [-2886751345927128]), (1, [-2886751345946639]), (1, [-2886751345948017]), (1, [-2886751345948078]), (2, [2886751345947991]), (1, [2886751345946611]), (1, [2886751345927128]), (1, [2886751345655460]), (1, [2886751341871709]), (1, [2886751289170947]), (1, [2886750555144328]), (1, [2886740331491706]), (1, [2886597938144363]), (1, [2884615384615373]), (1, [2857142857142875]), (1, [2500000000000017]), (1, [])]

def cert_Reduced2_2_27 : List (Nat × List Int) :=
  [(1, [-2499999999999982]), (1, [-2857142857142830]), (1, [-2884615384615407]), (1, [-2886597938144333]), (1, [-2886740331491718]), (1, [-2886750555144295]), (1, [-2886751289170989]), (1, [-2886751341871724]), (1, [-2886751345655475]), (1, [-2886751345927087]), (1, [-2886751345946621]), (1, [-2886751345948034]), (1, [-2886751345948102]), (2, [2886751345948102]), (1, [2886751345948034]), (1, [2886751345946619]), (1, [2886751345927119]), (1, [2886751345655446]), (1, [2886751341871726]), (1, [2886751289170958]), (1, [2886750555144326]), (1, [2886740331491689]), (1, [2886597938144333]), (1, [2884615384615407]), (1, [2857142857142830]), (1, [2499999999999986]), (1, [])]

def cert_Reduced2_2_28 : List (Nat × List Int) :=
  [(1, [-2499999999999983]), (1, [-2857142857142859]), (1, [-2884615384615393]), (1, [-2886597938144337]), (1, [-2886740331491731]), (1, [-2886750555144336]), (1, [-2886751289170962]), (1, [-2886751341871684]), (1, [-2886751345655436]), (1, [-2886751345927143]), (1, [-2886751345946626]), (1, [-2886751345948053]), (1, [-2886751345948132]), (1, [-2886751345948092]), (2, [2886751345948135]), (1, [2886751345948023]), (1, [2886751345946629]), (1, [2886751345927111]), (1, [2886751345655464]), (1, [2886751341871712]), (1, [2886751289170994]), (1, [2886750555144306]), (1, [2886740331491731]), (1, [2886597938144337]), (1, [2884615384615393]), (1, [2857142857142858]), (1, [2500000000000011]), (1, [])]

def cert_Reduced2_2_29 : List (Nat × List Int) :=
  [(1, [-2500000000000004]), (1, [-2857142857142856]), (1, [-2884615384615398]), (1, [-2886597938144318]), (1, [-2886740331491695]), (1, [-2886750555144321]), (1, [-2886751289170954]), (1, [-2886751341871682]), (1, [-2886751345655463]), (1, [-2886751345927080]), (1, [-2886751345946616]), (1, [-2886751345947998]), (1, [-2886751345948100]), (1, [-2886751345948117]), (2, [2886751345948138]), (1, [2886751345948129]), (1, [2886751345948027]), (1, [2886751345946645]), (1, [2886751345927111]), (1, [2886751345655460]), (1, [2886751341871713]), (1, [2886751289170951]), (1, [2886750555144352]), (1, [2886740331491695]), (1, [2886597938144321]), (1, [2884615384615366]), (1, [2857142857142856]), (1, [2500000000000004]), (1, [])]

def cert_Reduced2_2 : List (Nat × List (Nat × List Int)) :=
  [(1, cert_Reduced2_2_1), (2, cert_Reduced2_2_2), (3, cert_Reduced2_2_3), (4, cert_Reduced2_2_4), (5, cert_Reduced2_2_5), (6, cert_Reduced2_2_6), (7, cert_Reduced2_2_7), (8, cert_Reduced2_2_8), (9, cert_Reduced2_2_9), (10, cert_Reduced2_2_10), (11, cert_Reduced2_2_11), (12, cert_Reduced2_2_12), (13, cert_Reduced2_2_13), (14, cert_Reduced2_2_14), (15, cert_Reduced2_2_15), (16, cert_Reduced2_2_16), (17, cert_Reduced2_2_17), (18, cert_Reduced2_2_18), (19, cert_Reduced2_2_19), (20, cert_Reduced2_2_20), (21, cert_Reduced2_2_21), (22, cert_Reduced2_2_22), (23, cert_Reduced2_2_23), (24, cert_Reduced2_2_24), (25, cert_Reduced2_2_25), (26, cert_Reduced2_2_26), (27, cert_Reduced2_2_27), (28, cert_Reduced2_2_28), (29, cert_Reduced2_2_29)]

theorem cert_Reduced2_2_1_ok : tableOK 2 .ggqReduced2 2 0 lag2 Tables.S_2_0_precomputed [(1, cert_Reduced2_2_1)] = true := by decide +kernel
theorem cert_Reduced2_2_2_ok : tableOK 2 .ggqReduced2 2 0 lag2 Tables.S_2_0_precomputed [(2, cert_Reduced2_2_2)] = true := by decide +kernel
theorem cert_Reduced2_2_3_ok : tableOK 2 .ggqReduced2 2 0 lag2 Tables.S_2_0_precomputed [(3, cert_Reduced2_2_3)] = true := by decide +kernel
theorem cert_Reduced2_2_4_ok : tableOK 2 .ggqReduced2 2 0 lag2 Tables.S_2_0_precomputed [(4, cert_Reduced2_2_4)] = true := by decide +kernel
theorem cert_Reduced2_2_5_ok : tableOK 2 .ggqReduced2 2 0 lag2 Tables.S_2_0_precomputed [(5, cert_Reduced2_2_5)] = true := by decide +kernel
theorem cert_Reduced2_2_6_ok : tableOK 2 .ggqReduced2 2 0 lag2 Tables.S_2_0_precomputed [(6, cert_Reduced2_2_6)] = true := by decide +kernel
theorem cert_Reduced2_2_7_ok : tableOK 2 .ggqReduced2 2 0 lag2 Tables.S_2_0_precomputed [(7, cert_Reduced2_2_7)] = true := by decide +kernel
theorem cert_Reduced2_2_8_ok : tableOK 2 .ggqReduced2 2 0 lag2 Tables.S_2_0_precomputed [(8, cert_Reduced2_2_8)] = true := by decide +kernel
theorem cert_Reduced2_2_9_ok : tableOK 2 .ggqReduced2 2 0 lag2 Tables.S_2_0_precomputed [(9, cert_Reduced2_2_9)] = true := by decide +kernel
theorem cert_Reduced2_2_10_ok : tableOK 2 .ggqReduced2 2 0 lag2 Tables.S_2_0_precomputed [(10, cert_Reduced2_2_10)] = true := by decide +kernel
theorem cert_Reduced2_2_11_ok : tableOK 2 .ggqReduced2 2 0 lag2 Tables.S_2_0_precomputed [(11, cert_Reduced2_2_11)] = true := by decide +kernel
theorem cert_Reduced2_2_12_ok : tableOK 2 .ggqReduced2 2 0 lag2 Tables.S_2_0_precomputed [(12, cert_Reduced2_2_12)] = true := by decide +kernel
theorem cert_Reduced2_2_13_ok : tableOK 2 .ggqReduced2 2 0 lag2 Tables.S_2_0_precomputed [(13, cert_Reduced2_2_13)] = true := by decide +kernel
theorem cert_Reduced2_2_14_ok : tableOK 2 .ggqReduced2 2 0 lag2 Tables.S_2_0_precomputed [(14, cert_Reduced2_2_14)] = true := by decide +kernel
theorem cert_Reduced2_2_15_ok : tableOK 2 .ggqReduced2 2 0 lag2 Tables.S_2_0_precomputed [(15, cert_Reduced2_2_15)] = true := by decide +kernel
theorem cert_Reduced2_2_16_ok : tableOK 2 .ggqReduced2 2 0 lag2 Tables.S_2_0_precomputed [(16, cert_Reduced2_2_16)] = true := by decide +kernel
theorem cert_Reduced2_2_17_ok : tableOK 2 .ggqReduced2 2 0 lag2 Tables.S_2_0_precomputed [(17, cert_Reduced2_2_17)] = true := by decide +kernel
theorem cert_Reduced2_2_18_ok : tableOK 2 .ggqReduced2 2 0 lag2 Tables.S_2_0_precomputed [(18, cert_Reduced2_2_18)] = true := by decide +kernel
theorem cert_Reduced2_2_19_ok : tableOK 2 .ggqReduced2 2 0 lag2 Tables.S_2_0_precomputed [(19, cert_Reduced2_2_19)] = true := by decide +kernel
theorem cert_Reduced2_2_20_ok : tableOK 2 .ggqReduced2 2 0 lag2 Tables.S_2_0_precomputed [(20, cert_Reduced2_2_20)] = true := by decide +kernel
theorem cert_Reduced2_2_21_ok : tableOK 2 .ggqReduced2 2 0 lag2 Tables.S_2_0_precomputed [(21, cert_Reduced2_2_21)] = true := by decide +kernel
theorem cert_Reduced2_2_22_ok : tableOK 2 .ggqReduced2 2 0 lag2 Tables.S_2_0_precomputed [(22, cert_Reduced2_2_22)] = true := by decide +kernel
theorem cert_Reduced2_2_23_ok : tableOK 2 .ggqReduced2 2 0 lag2 Tables.S_2_0_precomputed [(23, cert_Reduced2_2_23)] = true := by decide +kernel
theorem cert_Reduced2_2_24_ok : tableOK 2 .ggqReduced2 2 0 lag2 Tables.S_2_0_precomputed [(24, cert_Reduced2_2_24)] = true := by decide +kernel
theorem cert_Reduced2_2_25_ok : tableOK 2 .ggqReduced2 2 0 lag2 Tables.S_2_0_precomputed [(25, cert_Reduced2_2_25)] = true := by decide +kernel
theorem cert_Reduced2_2_26_ok : tableOK 2 .ggqReduced2 2 0 lag2 Tables.S_2_0_precomputed [(26, cert_Reduced2_2_26)] = true := by decide +kernel
theorem cert_Reduced2_2_27_ok : tableOK 2 .ggqReduced2 2 0 lag2 Tables.S_2_0_precomputed [(27, cert_Reduced2_2_27)] = true := by decide +kernel
theorem cert_Reduced2_2_28_ok : tableOK 2 .ggqReduced2 2 0 lag2 Tables.S_2_0_precomputed [(28, cert_Reduced2_2_28)] = true := by decide +kernel
theorem cert_Reduced2_2_29_ok : tableOK 2 .ggqReduced2 2 0 lag2 Tables.S_2_0_precomputed [(29, cert_Reduced2_2_29)] = true := by decide +kernel

theorem cert_Reduced2_2_ok : tableOK 2 .ggqReduced2 2 0 lag2 Tables.S_2_0_precomputed cert_Reduced2_2 = true :=
  tableOK_cons cert_Reduced2_2_1_ok (tableOK_cons cert_Reduced2_2_2_ok (tableOK_cons cert_Reduced2_2_3_ok (tableOK_cons cert_Reduced2_2_4_ok (tableOK_cons cert_Reduced2_2_5_ok (tableOK_cons cert_Reduced2_2_6_ok (tableOK_cons cert_Reduced2_2_7_ok (tableOK_cons cert_Reduced2_2_8_ok (tableOK_cons cert_Reduced2_2_9_ok (tableOK_cons cert_Reduced2_2_10_ok (tableOK_cons cert_Reduced2_2_11_ok (tableOK_cons cert_Reduced2_2_12_ok (tableOK_cons cert_Reduced2_2_13_ok (tableOK_cons cert_Reduced2_2_14_ok (tableOK_cons cert_Reduced2_2_15_ok (tableOK_cons cert_Reduced2_2_16_ok (tableOK_cons cert_Reduced2_2_17_ok (tableOK_cons cert_Reduced2_2_18_ok (tableOK_cons cert_Reduced2_2_19_ok (tableOK_cons cert_Reduced2_2_20_ok (tableOK_cons cert_Reduced2_2_21_ok (tableOK_cons cert_Reduced2_2_22_ok (tableOK_cons cert_Reduced2_2_23_ok (tableOK_cons cert_Reduced2_2_24_ok (tableOK_cons cert_Reduced2_2_25_ok (tableOK_cons cert_Reduced2_2_26_ok (tableOK_cons cert_Reduced2_2_27_ok (tableOK_cons cert_Reduced2_2_28_ok (tableOK_cons cert_Reduced2_2_29_ok (rfl)))))))))))))))))))))))))))))

def class_Reduced2_2_0 : Cert where
  spA := [(1, [-4999999999999906]), (1, [-5714285714285675]), (1, [-5769230769230740]), (1, [-5773195876288608]), (1, [-5773480662983431]), (1, [-5773501110288606]), (1, [-5773502578341895]), (1, [-5773502683743372]), (1, [-5773502691310907]), (1, [-5773502691854194]), (1, [-5773502691893208]), (1, [-5773502691895991]), (1, [-5773502691896252]), (1, [-5773502691896226])]
  spP := [(1, [-5773502691896226])]
  spC := [(1, [-5773502691896105]), (2, [5773502691896226])]
  spP' := [(1, [5773502691896226])]
  spA' := [(1, [5773502691896252]), (1, [5773502691895991]), (1, [5773502691893208]), (1, [5773502691854194]), (1, [5773502691310907]), (1, [5773502683743372]), (1, [5773502578341895]), (1, [5773501110288606]), (1, [5773480662983431]), (1, [5773195876288608]), (1, [5769230769230740]), (1, [5714285714285675]), (1, [4999999999999906]), (1, [])]
  lA := [-5773502691896226]
  lC := [5773502691896226]

theorem class_Reduced2_2_0_ok : classData 2 .ggqReduced2 2 0 lag2 ((Tables.S_2_0_base_odd)[0]!) ((Tables.S_2_0_base_odd)[1]!) ((Tables.S_2_0_base_odd)[2]!) 14 1 30 class_Reduced2_2_0 = true := by decide +kernel

def class_Reduced2_2_1 : Cert where
  spA := [(1, [-4999999999999906]), (1, [-5714285714285675]), (1, [-5769230769230740]), (1, [-5773195876288608]), (1, [-5773480662983431]), (1, [-5773501110288606]), (1, [-5773502578341895]), (1, [-5773502683743372]), (1, [-5773502691310907]), (1, [-5773502691854194]), (1, [-5773502691893208]), (1, [-5773502691895991]), (1, [-5773502691896252]), (1, [-5773502691896226])]
  spP := [(1, [-5773502691896226])]
  spC := [(1, [-5773502691896194]), (2, [5773502691896194]), (1, [5773502691896226])]
  spP' := [(1, [5773502691896226])]
  spA' := [(1, [5773502691896252]), (1, [5773502691895991]), (1, [5773502691893208]), (1, [5773502691854194]), (1, [5773502691310907]), (1, [5773502683743372]), (1, [5773502578341895]), (1, [5773501110288606]), (1, [5773480662983431]), (1, [5773195876288608]), (1, [5769230769230740]), (1, [5714285714285675]), (1, [4999999999999906]), (1, [])]
  lA := [-5773502691896226]
  lC := [5773502691896226]

theorem class_Reduced2_2_1_ok : classData 2 .ggqReduced2 2 0 lag2 ((Tables.S_2_0_base_even)[0]!) ((Tables.S_2_0_base_even)[1]!) ((Tables.S_2_0_base_even)[2]!) 14 1 31 class_Reduced2_2_1 = true := by decide +kernel

/-- Degree 2, `ggqReduced2`: the rule of every number of spans. -/
theorem good_Reduced2_2 (e : ℕ) (he : 1 ≤ e) :
    ∃ rule, getGGQ 2 e .ggqReduced2 = .ok rule ∧ GoodRule 2 0 e rule := by
  have key : e ∈ [1, 2, 3, 4, 5, 6, 7, 8, 9, 10, 11, 12, 13, 14, 15, 16, 17, 18, 19, 20, 21, 22, 23, 24, 25, 26, 27, 28, 29] ∨ (30 ≤ e ∧ e % 2 = 0) ∨ (31 ≤ e ∧ e % 2 = 1) := by
    rcases Nat.lt_or_ge e 32 with h | h
    · have : ∀ e < 32, 1 ≤ e → (e ∈ [1, 2, 3, 4, 5, 6, 7, 8, 9, 10, 11, 12, 13, 14, 15, 16, 17, 18, 19, 20, 21, 22, 23, 24, 25, 26, 27, 28, 29] ∨ (30 ≤ e ∧ e % 2 = 0) ∨ (31 ≤ e ∧ e % 2 = 1)) := by decide +kernel
      exact this e h he
    · omega
  rcases key with h | ⟨h1, h2⟩ | ⟨h1, h2⟩
  · exact table_good lag2_ok (by norm_num) rfl cert_Reduced2_2_ok (by simpa [cert_Reduced2_2] using h)
  · have := class_good lag2_ok class_Reduced2_2_0_ok ((e - 30) / 2)
    rwa [show 30 + 2 * 1 * ((e - 30) / 2) = e by omega] at this
  · have := class_good lag2_ok class_Reduced2_2_1_ok ((e - 31) / 2)
    rwa [show 31 + 2 * 1 * ((e - 31) / 2) = e by omega] at this

end QuESo.Rules
