import Verif.Proofs.RuleCerts.Lagrange

/-! # Certificates of the rules `ggqReduced2` for degree 3 (generated) -/
namespace QuESo.Rules

def cert_Reduced2_3_1 : List (Nat × List Int) :=
  [(3, [])]

def cert_Reduced2_3_2 : List (Nat × List Int) :=
  [(2, [0, -128917115316043]), (2, [])]

def cert_Reduced2_3_3 : List (Nat × List Int) :=
  [(2, [-246913580246913, -101806012811303]), (2, [246913580246913, -101806012811304]), (2, [])]

def cert_Reduced2_3_4 : List (Nat × List Int) :=
  [(2, [161842851091048, -146280461266300]), (1, [-3223630499623314, 328076016883748]), (2, [-161842851091049, -146280461266300]), (2, [])]

def cert_Reduced2_3_5 : List (Nat × List Int) :=
  [(2, [150511435496222, -145074799803160]), (2, [2333333333333323, 166666666666667]), (1, [-2333333333333323, 166666666666667]), (2, [-150511435496221, -145074799803160]), (2, [])]

def cert_Reduced2_3_6 : List (Nat × List Int) :=
  [(2, [161842851091047, -146280461266301]), (1, [-3223630499623319, 328076016883748]), (2, [0, -166664523618035]), (2, [3223630499623319, 328076016883748]), (1, [-161842851091048, -146280461266301]), (2, [])]

def cert_Reduced2_3_7 : List (Nat × List Int) :=
  [(2, [161819061148933, -146277931573289]), (2, [3180131019983846, 319474773144411]), (1, [-401571553456378, -115488001574384]), (2, [401571553456377, -115488001574383]), (1, [-3180131019983828, 319474773144408]), (2, [-161819061148933, -146277931573289]), (2, [])]

def cert_Reduced2_3_8 : List (Nat × List Int) :=
  [(2, [161842851091048, -146280461266300]), (1, [-3223630499623316, 328076016883748]), (2, [8573088792, -166665595030136]), (1, [-3249998660451963, 333333065423770]), (2, [-8573088792, -166665595030135]), (2, [3223630499623337, 328076016883751]), (1, [-161842851091048, -146280461266301]), (2, [])]

def cert_Reduced2_3_9 : List (Nat × List Int) :=
  [(2, [161842851091049, -146280461266300]), (1, [-3223630499623281, 328076016883745]), (2, [-11792141563586, -165189987038024]), (2, [2333333333333303, 166666666666663]), (1, [-2333333333333319, 166666666666665]), (2, [11792141563588, -165189987038024]), (2, [3223630499623258, 328076016883743]), (1, [-161842851091048, -146280461266299]), (2, [])]

def cert_Reduced2_3_10 : List (Nat × List Int) :=
  [(2, [161842851091049, -146280461266302]), (1, [-3223630499623336, 328076016883751]), (2, [8573088792, -166665595030132]), (1, [-3249998660451957, 333333065423769]), (2, [-1, -166666666666658]), (2, [3249998660451984, 333333065423773]), (1, [-8573088793, -166665595030135]), (2, [3223630499623337, 328076016883753]), (1, [-161842851091051, -146280461266303]), (2, [])]

def cert_Reduced2_3_11 : List (Nat × List Int) :=
  [(2, [161842851091049, -146280461266300]), (1, [-3223630499623281, 328076016883746]), (2, [-51806561162, -166658049132919]), (2, [3180131019983840, 319474773144408]), (1, [-401571553456374, -115488001574385]), (2, [401571553456379, -115488001574382]), (1, [-3180131019983813, 319474773144404]), (2, [51806561159, -166658049132919]), (2, [3223630499623310, 328076016883749]), (1, [-161842851091050, -146280461266302]), (2, [])]

def cert_Reduced2_3_13 : List (Nat × List Int) :=
  [(2, [161842851091048, -146280461266300]), (1, [-3223630499623327, 328076016883750]), (2, [8531053454, -166665589776815]), (2, [3248150791444404, 332963573655546]), (1, [-11799583489068, -165190902025055]), (2, [2333333333333301, 166666666666669]), (1, [-2333333333333278, 166666666666663]), (2, [11799583489068, -165190902025053]), (1, [-3248150791444371, 332963573655542]), (2, [-8531053457, -166665589776819]), (2, [3223630499623329, 328076016883749]), (1, [-161842851091044, -146280461266301]), (2, [])]

def cert_Reduced2_3_15 : List (Nat × List Int) :=
  [(2, [161842851091052, -146280461266303]), (1, [-3223630499623329, 328076016883752]), (2, [8573087987, -166665595030033]), (2, [3249990566132303, 333331446561934]), (1, [-60375830358, -166659119666513]), (2, [3180131019983812, 319474773144408]), (1, [-401571553456369, -115488001574381]), (2, [401571553456376, -115488001574381]), (1, [-3180131019983812, 319474773144408]), (2, [60375830361, -166659119666513]), (1, [-3249990566132342, 333331446561938]), (2, [-8573087983, -166665595030031]), (2, [3223630499623329, 328076016883753]), (1, [-161842851091051, -146280461266304]), (2, [])]

def cert_Reduced2_3_17 : List (Nat × List Int) :=
  [(2, [161842851091047, -146280461266295]), (1, [-3223630499623246, 328076016883743]), (2, [8573088790, -166665595030140]), (1, [-3249998660451954, 333333065423772]), (2, [-42092004, -166666661405162]), (2, [3248150791444404, 332963573655545]), (1, [-11799583489072, -165190902025051]), (2, [2333333333333348, 166666666666669]), (1, [-2333333333333348, 166666666666667]), (2, [11799583489070, -165190902025052]), (1, [-3248150791444360, 332963573655539]), (2, [42091999, -166666661405165]), (2, [3249998660451956, 333333065423770]), (1, [-8573088791, -166665595030139]), (2, [3223630499623289, 328076016883749]), (1, [-161842851091053, -146280461266300]), (2, [])]

def cert_Reduced2_3_19 : List (Nat × List Int) :=
  [(2, [161842851091046, -146280461266297]), (1, [-3223630499623219, 328076016883738]), (2, [8573088786, -166665595030142]), (1, [-3249998660451953, 333333065423771]), (2, [-1075, -166666666666526]), (2, [3249990566132367, 333331446561943]), (1, [-60375830359, -166659119666516]), (2, [3180131019983784, 319474773144404]), (1, [-401571553456383, -115488001574384]), (2, [401571553456375, -115488001574385]), (1, [-3180131019983831, 319474773144408]), (2, [60375830361, -166659119666515]), (1, [-3249990566132316, 333331446561937]), (2, [1073, -166666666666526]), (2, [3249998660451955, 333333065423772]), (1, [-8573088791, -166665595030140]), (2, [3223630499623270, 328076016883743]), (1, [-161842851091046, -146280461266298]), (2, [])]

def cert_Reduced2_3_21 : List (Nat × List Int) :=
  [(2, [161842851091048, -146280461266299]), (1, [-3223630499623257, 328076016883742]), (2, [8573088789, -166665595030137]), (1, [-3249998660451961, 333333065423771]), (2, [18, -166666666666658]), (2, [3249999993423177, 333333332017966]), (1, [-42092026, -166666661405166]), (2, [3248150791444362, 332963573655545]), (1, [-11799583489070, -165190902025053]), (2, [2333333333333272, 166666666666666]), (1, [-2333333333333309, 166666666666670]), (2, [11799583489067, -165190902025049]), (1, [-3248150791444307, 332963573655536]), (2, [42092022, -166666661405166]), (1, [-3249999993423120, 333333332017961]), (2, [-21, -166666666666659]), (2, [3249998660451963, 333333065423774]), (1, [-8573088790, -166665595030138]), (2, [3223630499623259, 328076016883743]), (1, [-161842851091045, -146280461266296]), (2, [])]

def cert_Reduced2_3_25 : List (Nat × List Int) :=
  [(2, [161842851091047, -146280461266302]), (1, [-3223630499623332, 328076016883749]), (2, [8573088794, -166665595030138]), (1, [-3249998660451991, 333333065423773]), (2, [24, -166666666666661]), (1, [-3250000000000002, 333333333333332]), (2, [0, -166666666666668]), (2, [3249999993423136, 333333332017960]), (1, [-42092026, -166666661405166]), (2, [3248150791444371, 332963573655540]), (1, [-11799583489067, -165190902025054]), (2, [2333333333333313, 166666666666665]), (1, [-2333333333333313, 166666666666666]), (2, [11799583489072, -165190902025055]), (1, [-3248150791444433, 332963573655548]), (2, [42092025, -166666661405156]), (1, [-3249999993423074, 333333332017951]), (2, [-3, -166666666666671]), (1, [-3249999999999998, 333333333333334]), (2, [-21, -166666666666665]), (2, [3249998660451940, 333333065423765]), (1, [-8573088789, -166665595030134]), (2, [3223630499623344, 328076016883750]), (1, [-161842851091050, -146280461266299]), (2, [])]

def cert_Reduced2_3 : List (Nat × List (Nat × List Int)) :=
  [(1, cert_Reduced2_3_1), (2, cert_Reduced2_3_2), (3, cert_Reduced2_3_3), (4, cert_Reduced2_3_4), (5, cert_Reduced2_3_5), (6, cert_Reduced2_3_6), (7, cert_Reduced2_3_7), (8, cert_Reduced2_3_8), (9, cert_Reduced2_3_9), (10, cert_Reduced2_3_10), (11, cert_Reduced2_3_11), (13, cert_Reduced2_3_13), (15, cert_Reduced2_3_15), (17, cert_Reduced2_3_17), (19, cert_Reduced2_3_19), (21, cert_Reduced2_3_21), (25, cert_Reduced2_3_25)]

theorem cert_Reduced2_3_1_ok : tableOK 3 .ggqReduced2 4 1 lag4 Tables.S_4_1_precomputed [(1, cert_Reduced2_3_1)] = true := by decide +kernel
theorem cert_Reduced2_3_2_ok : tableOK 3 .ggqReduced2 4 1 lag4 Tables.S_4_1_precomputed [(2, cert_Reduced2_3_2)] = true := by decide +kernel
theorem cert_Reduced2_3_3_ok : tableOK 3 .ggqReduced2 4 1 lag4 Tables.S_4_1_precomputed [(3, cert_Reduced2_3_3)] = true := by decide +kernel
theorem cert_Reduced2_3_4_ok : tableOK 3 .ggqReduced2 4 1 lag4 Tables.S_4_1_precomputed [(4, cert_Reduced2_3_4)] = true := by decide +kernel
theorem cert_Reduced2_3_5_ok : tableOK 3 .ggqReduced2 4 1 lag4 Tables.S_4_1_precomputed [(5, cert_Reduced2_3_5)] = true := by decide +kernel
theorem cert_Reduced2_3_6_ok : tableOK 3 .ggqReduced2 4 1 lag4 Tables.S_4_1_precomputed [(6, cert_Reduced2_3_6)] = true := by decide +kernel
theorem cert_Reduced2_3_7_ok : tableOK 3 .ggqReduced2 4 1 lag4 Tables.S_4_1_precomputed [(7, cert_Reduced2_3_7)] = true := by decide +kernel
theorem cert_Reduced2_3_8_ok : tableOK 3 .ggqReduced2 4 1 lag4 Tables.S_4_1_precomputed [(8, cert_Reduced2_3_8)] = true := by decide +kernel
theorem cert_Reduced2_3_9_ok : tableOK 3 .ggqReduced2 4 1 lag4 Tables.S_4_1_precomputed [(9, cert_Reduced2_3_9)] = true := by decide +kernel
theorem cert_Reduced2_3_10_ok : tableOK 3 .ggqReduced2 4 1 lag4 Tables.S_4_1_precomputed [(10, cert_Reduced2_3_10)] = true := by decide +kernel
theorem cert_Reduced2_3_11_ok : tableOK 3 .ggqReduced2 4 1 lag4 Tables.S_4_1_precomputed [(11, cert_Reduced2_3_11)] = true := by decide +kernel
theorem cert_Reduced2_3_13_ok : tableOK 3 .ggqReduced2 4 1 lag4 Tables.S_4_1_precomputed [(13, cert_Reduced2_3_13)] = true := by decide +kernel
theorem cert_Reduced2_3_15_ok : tableOK 3 .ggqReduced2 4 1 lag4 Tables.S_4_1_precomputed [(15, cert_Reduced2_3_15)] = true := by decide +kernel
theorem cert_Reduced2_3_17_ok : tableOK 3 .ggqReduced2 4 1 lag4 Tables.S_4_1_precomputed [(17, cert_Reduced2_3_17)] = true := by decide +kernel
theorem cert_Reduced2_3_19_ok : tableOK 3 .ggqReduced2 4 1 lag4 Tables.S_4_1_precomputed [(19, cert_Reduced2_3_19)] = true := by decide +kernel
theorem cert_Reduced2_3_21_ok : tableOK 3 .ggqReduced2 4 1 lag4 Tables.S_4_1_precomputed [(21, cert_Reduced2_3_21)] = true := by decide +kernel
theorem cert_Reduced2_3_25_ok : tableOK 3 .ggqReduced2 4 1 lag4 Tables.S_4_1_precomputed [(25, cert_Reduced2_3_25)] = true := by decide +kernel

theorem cert_Reduced2_3_ok : tableOK 3 .ggqReduced2 4 1 lag4 Tables.S_4_1_precomputed cert_Reduced2_3 = true :=
  tableOK_cons cert_Reduced2_3_1_ok (tableOK_cons cert_Reduced2_3_2_ok (tableOK_cons cert_Reduced2_3_3_ok (tableOK_cons cert_Reduced2_3_4_ok (tableOK_cons cert_Reduced2_3_5_ok (tableOK_cons cert_Reduced2_3_6_ok (tableOK_cons cert_Reduced2_3_7_ok (tableOK_cons cert_Reduced2_3_8_ok (tableOK_cons cert_Reduced2_3_9_ok (tableOK_cons cert_Reduced2_3_10_ok (tableOK_cons cert_Reduced2_3_11_ok (tableOK_cons cert_Reduced2_3_13_ok (tableOK_cons cert_Reduced2_3_15_ok (tableOK_cons cert_Reduced2_3_17_ok (tableOK_cons cert_Reduced2_3_19_ok (tableOK_cons cert_Reduced2_3_21_ok (tableOK_cons cert_Reduced2_3_25_ok (rfl)))))))))))))))))

def direct_Reduced2_3_12 : List (Nat × List Int) :=
  [(2, [323685702182115, -292560922532602]), (1, [-6447260999246458, 656152033767486]), (2, [17146177579, -333331190060266]), (1, [-6499997320903714, 666666130847531]), (2, [42, -333333333333331]), (1, [-6499999999999909, 666666666666679]), (2, [-42, -333333333333331]), (2, [6499997320903714, 666666130847531]), (1, [-17146177579, -333331190060266]), (2, [6447260999246458, 656152033767486]), (1, [-323685702182115, -292560922532602]), (2, [])]

theorem direct_Reduced2_3_12_ok : directData 3 .ggqReduced2 4 1 lag4 ((Tables.S_4_1_base_odd)[0]!) ((Tables.S_4_1_base_odd)[1]!) ((Tables.S_4_1_base_odd)[2]!) 6 2 12 direct_Reduced2_3_12 = true := by decide +kernel

def class_Reduced2_3_0 : Cert where
  spA := [(2, [323685702182115, -292560922532602]), (1, [-6447260999246458, 656152033767486]), (2, [17146177579, -333331190060265]), (1, [-6499997320903712, 666666130847530]), (2, [36, -333333333333326]), (1, [-6499999999999907, 666666666666666])]
  spP := [(2, [3, -333333333333335]), (1, [-6499999999999907, 666666666666666])]
  spC := [(2, [5, -333333333333336]), (1, [-6499999999999909, 666666666666670]), (2, [-5, -333333333333336]), (2, [6499999999999907, 666666666666666])]
  spP' := [(1, [-3, -333333333333335]), (2, [6499999999999907, 666666666666666])]
  spA' := [(1, [-36, -333333333333326]), (2, [6499997320903712, 666666130847530]), (1, [-17146177579, -333331190060265]), (2, [6447260999246458, 656152033767486]), (1, [-323685702182115, -292560922532602]), (2, [])]
  lA := [-6499999999999907, 666666666666666]
  lC := [6499999999999907, 666666666666666]

theorem class_Reduced2_3_0_ok : classData 3 .ggqReduced2 4 1 lag4 ((Tables.S_4_1_base_odd)[0]!) ((Tables.S_4_1_base_odd)[1]!) ((Tables.S_4_1_base_odd)[2]!) 6 2 16 class_Reduced2_3_0 = true := by decide +kernel

def class_Reduced2_3_1 : Cert where
  spA := [(2, [323685702182115, -292560922532602]), (1, [-6447260999246458, 656152033767486]), (2, [17146177579, -333331190060265]), (1, [-6499997320903712, 666666130847530]), (2, [36, -333333333333326]), (1, [-6499999999999907, 666666666666666])]
  spP := [(2, [3, -333333333333335]), (1, [-6499999999999907, 666666666666666])]
  spC := [(2, [11, -333333333333340]), (2, [6499999999999814, 666666666666659]), (1, [-9, -333333333333312]), (2, [6499999986846347, 666666664035931]), (1, [-84184057, -333333322810318]), (2, [6496301582888727, 665927147311097]), (1, [-23599166978142, -330381804050107]), (2, [4666666666666481, 333333333333331]), (1, [-4666666666666481, 333333333333331]), (2, [23599166978142, -330381804050107]), (1, [-6496301582888727, 665927147311097]), (2, [84184057, -333333322810318]), (1, [-6499999986846347, 666666664035931]), (2, [9, -333333333333312]), (1, [-6499999999999814, 666666666666659]), (2, [-11, -333333333333340]), (2, [6499999999999907, 666666666666666])]
  spP' := [(1, [-3, -333333333333335]), (2, [6499999999999907, 666666666666666])]
  spA' := [(1, [-36, -333333333333326]), (2, [6499997320903712, 666666130847530]), (1, [-17146177579, -333331190060265]), (2, [6447260999246458, 656152033767486]), (1, [-323685702182115, -292560922532602]), (2, [])]
  lA := [-6499999999999907, 666666666666666]
  lC := [6499999999999907, 666666666666666]

theorem class_Reduced2_3_1_ok : classData 3 .ggqReduced2 4 1 lag4 ((Tables.S_4_1_base_odd)[0]!) ((Tables.S_4_1_base_odd)[1]!) ((Tables.S_4_1_base_odd)[2]!) 6 2 29 class_Reduced2_3_1 = true := by decide +kernel

def class_Reduced2_3_2 : Cert where
  spA := [(2, [323685702182115, -292560922532602]), (1, [-6447260999246458, 656152033767486]), (2, [17146177579, -333331190060265]), (1, [-6499997320903712, 666666130847530]), (2, [36, -333333333333326]), (1, [-6499999999999907, 666666666666666])]
  spP := [(2, [3, -333333333333335]), (1, [-6499999999999907, 666666666666666])]
  spC := [(2, [0, -333333333333338]), (2, [6499999999999907, 666666666666666])]
  spP' := [(1, [-3, -333333333333335]), (2, [6499999999999907, 666666666666666])]
  spA' := [(1, [-36, -333333333333326]), (2, [6499997320903712, 666666130847530]), (1, [-17146177579, -333331190060265]), (2, [6447260999246458, 656152033767486]), (1, [-323685702182115, -292560922532602]), (2, [])]
  lA := [-6499999999999907, 666666666666666]
  lC := [6499999999999907, 666666666666666]

theorem class_Reduced2_3_2_ok : classData 3 .ggqReduced2 4 1 lag4 ((Tables.S_4_1_base_even)[0]!) ((Tables.S_4_1_base_even)[1]!) ((Tables.S_4_1_base_even)[2]!) 6 2 14 class_Reduced2_3_2 = true := by decide +kernel

def direct_Reduced2_3_23 : List (Nat × List Int) :=
  [(2, [323685702182115, -292560922532602]), (1, [-6447260999246458, 656152033767486]), (2, [17146177580, -333331190060266]), (1, [-6499997320903714, 666666130847532]), (2, [43, -333333333333332]), (2, [6499999999999530, 666666666666590]), (1, [-2173, -333333333333054]), (2, [6499981132264506, 666662893123870]), (1, [-120751660720, -333318239333025]), (2, [6360262039967562, 638949546288805]), (1, [-803143106912747, -230976003148762]), (2, [803143106912747, -230976003148762]), (1, [-6360262039967562, 638949546288805]), (2, [120751660720, -333318239333025]), (1, [-6499981132264506, 666662893123870]), (2, [2173, -333333333333054]), (1, [-6499999999999530, 666666666666590]), (2, [-43, -333333333333332]), (2, [6499997320903714, 666666130847532]), (1, [-17146177580, -333331190060266]), (2, [6447260999246458, 656152033767486]), (1, [-323685702182115, -292560922532602]), (2, [])]

theorem direct_Reduced2_3_23_ok : directData 3 .ggqReduced2 4 1 lag4 ((Tables.S_4_1_base_even_2)[0]!) ((Tables.S_4_1_base_even_2)[1]!) ((Tables.S_4_1_base_even_2)[2]!) 6 2 23 direct_Reduced2_3_23 = true := by decide +kernel

def class_Reduced2_3_3 : Cert where
  spA := [(2, [323685702182115, -292560922532602]), (1, [-6447260999246458, 656152033767486]), (2, [17146177579, -333331190060265]), (1, [-6499997320903712, 666666130847530]), (2, [36, -333333333333326]), (1, [-6499999999999907, 666666666666666])]
  spP := [(2, [3, -333333333333335]), (1, [-6499999999999907, 666666666666666])]
  spC := [(2, [8, -333333333333339]), (2, [6499999999999530, 666666666666585]), (1, [-2171, -333333333333052]), (2, [6499981132264505, 666662893123869]), (1, [-120751660720, -333318239333025]), (2, [6360262039967562, 638949546288805]), (1, [-803143106912747, -230976003148762]), (2, [803143106912747, -230976003148762]), (1, [-6360262039967562, 638949546288805]), (2, [120751660720, -333318239333025]), (1, [-6499981132264505, 666662893123869]), (2, [2171, -333333333333052]), (1, [-6499999999999530, 666666666666585]), (2, [-8, -333333333333339]), (2, [6499999999999907, 666666666666666])]
  spP' := [(1, [-3, -333333333333335]), (2, [6499999999999907, 666666666666666])]
  spA' := [(1, [-36, -333333333333326]), (2, [6499997320903712, 666666130847530]), (1, [-17146177579, -333331190060265]), (2, [6447260999246458, 656152033767486]), (1, [-323685702182115, -292560922532602]), (2, [])]
  lA := [-6499999999999907, 666666666666666]
  lC := [6499999999999907, 666666666666666]

theorem class_Reduced2_3_3_ok : classData 3 .ggqReduced2 4 1 lag4 ((Tables.S_4_1_base_even_2)[0]!) ((Tables.S_4_1_base_even_2)[1]!) ((Tables.S_4_1_base_even_2)[2]!) 6 2 27 class_Reduced2_3_3 = true := by decide +kernel

/-- Degree 3, `ggqReduced2`: the rule of every number of spans. -/
theorem good_Reduced2_3 (e : ℕ) (he : 1 ≤ e) :
    ∃ rule, getGGQ 3 e .ggqReduced2 = .ok rule ∧ GoodRule 4 1 e rule := by
  have key : e ∈ [1, 2, 3, 4, 5, 6, 7, 8, 9, 10, 11, 13, 15, 17, 19, 21, 25] ∨ e = 12 ∨ e = 23 ∨ (16 ≤ e ∧ e % 4 = 0) ∨ (29 ≤ e ∧ e % 4 = 1) ∨ (14 ≤ e ∧ e % 4 = 2) ∨ (27 ≤ e ∧ e % 4 = 3) := by
    rcases Nat.lt_or_ge e 30 with h | h
    · have : ∀ e < 30, 1 ≤ e → (e ∈ [1, 2, 3, 4, 5, 6, 7, 8, 9, 10, 11, 13, 15, 17, 19, 21, 25] ∨ e = 12 ∨ e = 23 ∨ (16 ≤ e ∧ e % 4 = 0) ∨ (29 ≤ e ∧ e % 4 = 1) ∨ (14 ≤ e ∧ e % 4 = 2) ∨ (27 ≤ e ∧ e % 4 = 3)) := by decide +kernel
      exact this e h he
    · omega
  rcases key with h | rfl | rfl | ⟨h1, h2⟩ | ⟨h1, h2⟩ | ⟨h1, h2⟩ | ⟨h1, h2⟩
  · exact table_good lag4_ok (by norm_num) rfl cert_Reduced2_3_ok (by simpa [cert_Reduced2_3] using h)
  · exact direct_good lag4_ok direct_Reduced2_3_12_ok
  · exact direct_good lag4_ok direct_Reduced2_3_23_ok
  · have := class_good lag4_ok class_Reduced2_3_0_ok ((e - 16) / 4)
    rwa [show 16 + 2 * 2 * ((e - 16) / 4) = e by omega] at this
  · have := class_good lag4_ok class_Reduced2_3_1_ok ((e - 29) / 4)
    rwa [show 29 + 2 * 2 * ((e - 29) / 4) = e by omega] at this
  · have := class_good lag4_ok class_Reduced2_3_2_ok ((e - 14) / 4)
    rwa [show 14 + 2 * 2 * ((e - 14) / 4) = e by omega] at this
  · have := class_good lag4_ok class_Reduced2_3_3_ok ((e - 27) / 4)
    rwa [show 27 + 2 * 2 * ((e - 27) / 4) = e by omega] at this

end QuESo.Rules
