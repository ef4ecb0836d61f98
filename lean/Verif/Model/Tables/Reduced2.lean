/-!
# Tables of one-dimensional rules (generated from the source text)

`queso/quadrature/integration_points_1d/precomputed_ggq_rules_reduced2.cpp`.  Every entry (position, weight) is the decimal number of the
source multiplied by `10 ^ 16`; the rounding of the decimal to the nearest `double` is not modelled.
-/
namespace QuESo.Rules.Tables

/-- precomputed_ggq_rules_reduced2.cpp L21-36, entry 0 of `S_2_0_base_even`. -/
def S_2_0_base_even_row0 : List (Int × Int) := [
  (3333333333333370, 7500000000000053), (12222222222222270, 9642857142857159),
  (22121212121212142, 9972527472527469), (32113821138211396, 9998017446471051),
  (42113289760348609, 9999857606652619), (52113251605370694, 9999989776347376),
  (62113248865947162, 9999999265973376), (72113248669265282, 9999999947299241),
  (82113248655144169, 9999999996216260), (92113248654130295, 9999999999728333),
  (102113248654057520, 9999999999980502), (112113248654052290, 9999999999998590),
  (122113248654051920, 9999999999999882), (132113248654051870, 9999999999999996)]

/-- precomputed_ggq_rules_reduced2.cpp L37-39, entry 1 of `S_2_0_base_even`. -/
def S_2_0_base_even_row1 : List (Int × Int) := [
  (2113248654051887, 10000000000000000)]

/-- precomputed_ggq_rules_reduced2.cpp L40-44, entry 2 of `S_2_0_base_even`. -/
def S_2_0_base_even_row2 : List (Int × Int) := [
  (-12886751345948078, 10000000000000027), (-3799178428257939, 7886751345948098)]

/-- `S_2_0_base_even`, precomputed_ggq_rules_reduced2.cpp L19-45. -/
def S_2_0_base_even : List (List (Int × Int)) := [
  S_2_0_base_even_row0, S_2_0_base_even_row1, S_2_0_base_even_row2]

/-- precomputed_ggq_rules_reduced2.cpp L49-64, entry 0 of `S_2_0_base_odd`. -/
def S_2_0_base_odd_row0 : List (Int × Int) := [
  (3333333333333370, 7500000000000053), (12222222222222270, 9642857142857159),
  (22121212121212142, 9972527472527469), (32113821138211396, 9998017446471051),
  (42113289760348609, 9999857606652619), (52113251605370694, 9999989776347376),
  (62113248865947162, 9999999265973376), (72113248669265282, 9999999947299241),
  (82113248655144169, 9999999996216260), (92113248654130295, 9999999999728333),
  (102113248654057520, 9999999999980502), (112113248654052290, 9999999999998590),
  (122113248654051920, 9999999999999882), (132113248654051870, 9999999999999996)]

/-- precomputed_ggq_rules_reduced2.cpp L65-67, entry 1 of `S_2_0_base_odd`. -/
def S_2_0_base_odd_row1 : List (Int × Int) := [
  (2113248654051887, 10000000000000000)]

/-- precomputed_ggq_rules_reduced2.cpp L68-71, entry 2 of `S_2_0_base_odd`. -/
def S_2_0_base_odd_row2 : List (Int × Int) := [
  (0, 5773502691896105)]

/-- `S_2_0_base_odd`, precomputed_ggq_rules_reduced2.cpp L47-72. -/
def S_2_0_base_odd : List (List (Int × Int)) := [
  S_2_0_base_odd_row0, S_2_0_base_odd_row1, S_2_0_base_odd_row2]

/-- precomputed_ggq_rules_reduced2.cpp L76-87, entry 0 of `S_4_1_base_even`. -/
def S_4_1_base_even_row0 : List (Int × Int) := [
  (1692090819876588, 4113445407548102), (7141610829854759, 6048397443542948),
  (13402701505133132, 6614526649285688), (20008147177467093, 6473675287086823),
  (26666691683021102, 6749963785625228), (33333336905458983, 6749992766459292),
  (40000000412168735, 6499998660451992), (46666666666666723, 6749999999999946),
  (53333333333333384, 6750000000000023)]

/-- precomputed_ggq_rules_reduced2.cpp L88-92, entry 1 of `S_4_1_base_even`. -/
def S_4_1_base_even_row1 : List (Int × Int) := [
  (0, 6499999999999909), (6666666666666679, 6750000000000023), (13333333333333339, 6750000000000060)]

/-- precomputed_ggq_rules_reduced2.cpp L93-97, entry 2 of `S_4_1_base_even`. -/
def S_4_1_base_even_row2 : List (Int × Int) := [
  (-10000000000000000, 6500000000000000), (-3333333333333333, 6750000000000000)]

/-- `S_4_1_base_even`, precomputed_ggq_rules_reduced2.cpp L74-98. -/
def S_4_1_base_even : List (List (Int × Int)) := [
  S_4_1_base_even_row0, S_4_1_base_even_row1, S_4_1_base_even_row2]

/-- precomputed_ggq_rules_reduced2.cpp L102-113, entry 0 of `S_4_1_base_even_2`. -/
def S_4_1_base_even_2_row0 : List (Int × Int) := [
  (1692090819876588, 4113445407548102), (7141610829854759, 6048397443542948),
  (13402701505133132, 6614526649285688), (20008147177467093, 6473675287086823),
  (26666691683021102, 6749963785625228), (33333336905458983, 6749992766459292),
  (40000000412168735, 6499998660451992), (46666666666666723, 6749999999999946),
  (53333333333333384, 6750000000000023)]

/-- precomputed_ggq_rules_reduced2.cpp L114-118, entry 1 of `S_4_1_base_even_2`. -/
def S_4_1_base_even_2_row1 : List (Int × Int) := [
  (0, 6499999999999909), (6666666666666679, 6750000000000023), (13333333333333339, 6750000000000060)]

/-- precomputed_ggq_rules_reduced2.cpp L119-129, entry 2 of `S_4_1_base_even_2`. -/
def S_4_1_base_even_2_row2 : List (Int × Int) := [
  (-55000000000000071, 6499999999999792), (-48333333333333783, 6749999999999071),
  (-41666666666669805, 6749999999995382), (-35000002902732774, 6499990566137979),
  (-28333358490190399, 6749949058037343), (-21666842975171807, 6749744427932157),
  (-15021736997028086, 6430446967882004), (-8513130671389835, 6418297426559864),
  (-2726599831851182, 5401571553456341)]

/-- `S_4_1_base_even_2`, precomputed_ggq_rules_reduced2.cpp L100-130. -/
def S_4_1_base_even_2 : List (List (Int × Int)) := [
  S_4_1_base_even_2_row0, S_4_1_base_even_2_row1, S_4_1_base_even_2_row2]

/-- precomputed_ggq_rules_reduced2.cpp L135-146, entry 0 of `S_4_1_base_odd`. -/
def S_4_1_base_odd_row0 : List (Int × Int) := [
  (1692090819876588, 4113445407548102), (7141610829854759, 6048397443542948),
  (13402701505133132, 6614526649285688), (20008147177467093, 6473675287086823),
  (26666691683021102, 6749963785625228), (33333336905458983, 6749992766459292),
  (40000000412168735, 6499998660451992), (46666666666666723, 6749999999999946),
  (53333333333333384, 6750000000000023)]

/-- precomputed_ggq_rules_reduced2.cpp L147-151, entry 1 of `S_4_1_base_odd`. -/
def S_4_1_base_odd_row1 : List (Int × Int) := [
  (0, 6499999999999909), (6666666666666679, 6750000000000023), (13333333333333339, 6750000000000060)]

/-- precomputed_ggq_rules_reduced2.cpp L152-164, entry 2 of `S_4_1_base_odd`. -/
def S_4_1_base_odd_row2 : List (Int × Int) := [
  (-65000000000000018, 6499999999999901), (-58333333333333393, 6750000000000020),
  (-51666666666666661, 6750000000000058), (-45000000002023626, 6499999993423077),
  (-38333333350871719, 6749999964484868), (-31666666789439031, 6749999822408161),
  (-25000569150445884, 6498151011128205), (-18338259819138969, 6740049625066586),
  (-11701502494202920, 6698472907881330), (-5338179958671638, 5646660008940997), (0, 5333333333333475)]

/-- `S_4_1_base_odd`, precomputed_ggq_rules_reduced2.cpp L133-165. -/
def S_4_1_base_odd : List (List (Int × Int)) := [
  S_4_1_base_odd_row0, S_4_1_base_odd_row1, S_4_1_base_odd_row2]

/-- precomputed_ggq_rules_reduced2.cpp L170-194, entry 0 of `S_6_2_base_odd`. -/
def S_6_2_base_odd_row0 : List (Int × Int) := [
  (990753049261918, 2466917491984454), (4593981395375434, 4384611139643027),
  (9094007975838164, 4489635029922912), (13818355233240884, 5041789560104182),
  (18850355371655398, 4867032971245457), (23768007017020318, 5106365572434155),
  (28836806531579868, 4888747497338207), (33765368278905390, 5109875735265973),
  (38836106404122281, 4889872315103893), (43765232397735057, 5110056835053225),
  (48836070377711485, 4889930201907193), (53765225406950954, 5110066153148917),
  (58836068524302858, 4889933179960750), (63765225047307554, 5110066632524118),
  (68836068428953769, 4889933333167540), (73765225028805608, 5110066657185705),
  (78836068424048511, 4889933341049294), (83765225027853774, 5110066658454424),
  (88836068423796135, 4889933341454775), (93765225027804799, 5110066658519686),
  (98836068423783168, 4889933341475641), (103765225027802270, 5110066658523043),
  (108836068423782510, 4889933341476710)]

/-- precomputed_ggq_rules_reduced2.cpp L195-198, entry 1 of `S_6_2_base_odd`. -/
def S_6_2_base_odd_row1 : List (Int × Int) := [
  (3765225027802135, 5110066658523233), (8836068423782475, 4889933341476766)]

/-- precomputed_ggq_rules_reduced2.cpp L199-225, entry 2 of `S_6_2_base_odd`. -/
def S_6_2_base_odd_row2 : List (Int × Int) := [
  (-121234774972197840, 5110066658523214), (-116163931576217540, 4889933341476743),
  (-111234774972197910, 5110066658523135), (-106163931576217820, 4889933341476280),
  (-101234774972199190, 5110066658521648), (-96163931576222303, 4889933341469131),
  (-91234774972218950, 5110066658498260), (-86163931576292611, 4889933341356547),
  (-81234774972529955, 5110066658129873), (-76163931577400028, 4889933339583423),
  (-71234774977428010, 5110066652328024), (-66163931594841045, 4889933311657711),
  (-61234775054569219, 5110066560952699), (-56163931869526422, 4889932871844833),
  (-51234776269496435, 5110065121847298), (-46163936195644339, 4889925945088577),
  (-41234795403785362, 5110042456931729), (-36164004327095078, 4889816859850412),
  (-31235096738954482, 5109685527195378), (-26165076794282491, 4888100556303404),
  (-21239838050888621, 5104071323376741), (-16181830097608944, 4861494445950436),
  (-11313332633619808, 5017642420862913), (-6417404789511174, 4533498994810962),
  (-2157477199005519, 4240823306497334)]

/-- `S_6_2_base_odd`, precomputed_ggq_rules_reduced2.cpp L168-226. -/
def S_6_2_base_odd : List (List (Int × Int)) := [
  S_6_2_base_odd_row0, S_6_2_base_odd_row1, S_6_2_base_odd_row2]

/-- precomputed_ggq_rules_reduced2.cpp L230-254, entry 0 of `S_6_2_base_even`. -/
def S_6_2_base_even_row0 : List (Int × Int) := [
  (990753049261918, 2466917491984454), (4593981395375434, 4384611139643027),
  (9094007975838164, 4489635029922912), (13818355233240884, 5041789560104182),
  (18850355371655398, 4867032971245457), (23768007017020318, 5106365572434155),
  (28836806531579868, 4888747497338207), (33765368278905390, 5109875735265973),
  (38836106404122281, 4889872315103893), (43765232397735057, 5110056835053225),
  (48836070377711485, 4889930201907193), (53765225406950954, 5110066153148917),
  (58836068524302858, 4889933179960750), (63765225047307554, 5110066632524118),
  (68836068428953769, 4889933333167540), (73765225028805608, 5110066657185705),
  (78836068424048511, 4889933341049294), (83765225027853774, 5110066658454424),
  (88836068423796135, 4889933341454775), (93765225027804799, 5110066658519686),
  (98836068423783168, 4889933341475641), (103765225027802270, 5110066658523043),
  (108836068423782510, 4889933341476710)]

/-- precomputed_ggq_rules_reduced2.cpp L255-258, entry 1 of `S_6_2_base_even`. -/
def S_6_2_base_even_row1 : List (Int × Int) := [
  (3765225027802135, 5110066658523233), (8836068423782475, 4889933341476766)]

/-- precomputed_ggq_rules_reduced2.cpp L259-284, entry 2 of `S_6_2_base_even`. -/
def S_6_2_base_even_row2 : List (Int × Int) := [
  (-116234774972197860, 5110066658523196), (-111163931576217590, 4889933341476650),
  (-106234774972198180, 5110066658522837), (-101163931576218710, 4889933341474841),
  (-96234774972203176, 5110066658516926), (-91163931576236443, 4889933341446474),
  (-86234774972281549, 5110066658424073), (-81163931576515579, 4889933340999540),
  (-76234774973516117, 5110066656961687), (-71163931580911743, 4889933333960632),
  (-66234774992960225, 5110066633929773), (-61163931650148448, 4889933223102200),
  (-56234775299192598, 5110066271191447), (-51163932740583497, 4889931477151246),
  (-46234780122160685, 5110060558291554), (-41163949914126582, 4889903979930557),
  (-36234856079808324, 5109970585436571), (-31164220351245646, 4889471024937990),
  (-26236052079294012, 5108554023417311), (-21168470745035037, 4882679363267630),
  (-16254816102060054, 5086360811092284), (-11233336793262189, 4782235093354931),
  (-6530273814961162, 4773803721271868), (-1947408577179103, 4122129596374497)]

/-- `S_6_2_base_even`, precomputed_ggq_rules_reduced2.cpp L228-285. -/
def S_6_2_base_even : List (List (Int × Int)) := [
  S_6_2_base_even_row0, S_6_2_base_even_row1, S_6_2_base_even_row2]

/-- precomputed_ggq_rules_reduced2.cpp L366-369, entry 0 of `S_2_0_precomputed`. -/
def S_2_0_precomputed_row0 : List (Int × Int) := [
  (2113248654051872, 5000000000000000), (7886751345948128, 5000000000000000)]

/-- precomputed_ggq_rules_reduced2.cpp L370-374, entry 1 of `S_2_0_precomputed`. -/
def S_2_0_precomputed_row1 : List (Int × Int) := [
  (1666666666666669, 3750000000000002), (5000000000000000, 2499999999999997),
  (8333333333333331, 3750000000000002)]

/-- precomputed_ggq_rules_reduced2.cpp L375-380, entry 2 of `S_2_0_precomputed`. -/
def S_2_0_precomputed_row2 : List (Int × Int) := [
  (1111111111111111, 2500000000000001), (3757740012500117, 2499999999999999),
  (6242259987499884, 2499999999999999), (8888888888888890, 2500000000000001)]

/-- precomputed_ggq_rules_reduced2.cpp L381-387, entry 3 of `S_2_0_precomputed`. -/
def S_2_0_precomputed_row3 : List (Int × Int) := [
  (833333333333334, 1875000000000001), (3055555555555556, 2410714285714286),
  (5000000000000000, 1428571428571426), (6944444444444444, 2410714285714286),
  (9166666666666666, 1875000000000001)]

/-- precomputed_ggq_rules_reduced2.cpp L388-395, entry 4 of `S_2_0_precomputed`. -/
def S_2_0_precomputed_row4 : List (Int × Int) := [
  (666666666666666, 1500000000000001), (2444444444444444, 1928571428571429),
  (4241213089360672, 1571428571428571), (5758786910639329, 1571428571428571),
  (7555555555555555, 1928571428571429), (9333333333333333, 1500000000000001)]

/-- precomputed_ggq_rules_reduced2.cpp L396-404, entry 5 of `S_2_0_precomputed`. -/
def S_2_0_precomputed_row5 : List (Int × Int) := [
  (555555555555556, 1250000000000001), (2037037037037037, 1607142857142857),
  (3686868686868688, 1662087912087913), (5000000000000000, 961538461538459),
  (6313131313131313, 1662087912087913), (7962962962962963, 1607142857142857),
  (9444444444444444, 1250000000000001)]

/-- precomputed_ggq_rules_reduced2.cpp L405-414, entry 6 of `S_2_0_precomputed`. -/
def S_2_0_precomputed_row6 : List (Int × Int) := [
  (476190476190476, 1071428571428573), (1746031746031746, 1377551020408163),
  (3160173160173161, 1424646781789639), (4457314043740501, 1126373626373625),
  (5542685956259500, 1126373626373625), (6839826839826839, 1424646781789639),
  (8253968253968254, 1377551020408163), (9523809523809524, 1071428571428573)]

/-- precomputed_ggq_rules_reduced2.cpp L415-425, entry 7 of `S_2_0_precomputed`. -/
def S_2_0_precomputed_row7 : List (Int × Int) := [
  (416666666666667, 937500000000003), (1527777777777778, 1205357142857139),
  (2765151515151516, 1246565934065933), (4014227642276424, 1249752180808885),
  (5000000000000000, 721649484536081), (5985772357723576, 1249752180808885),
  (7234848484848485, 1246565934065933), (8472222222222221, 1205357142857139),
  (9583333333333333, 937500000000003)]

/-- precomputed_ggq_rules_reduced2.cpp L426-437, entry 8 of `S_2_0_precomputed`. -/
def S_2_0_precomputed_row8 : List (Int × Int) := [
  (370370370370371, 833333333333334), (1358024691358025, 1071428571428571),
  (2457912457912458, 1108058608058608), (3568202348690154, 1110890827385674),
  (4577872069033641, 876288659793813), (5422127930966359, 876288659793813),
  (6431797651309846, 1110890827385674), (7542087542087541, 1108058608058608),
  (8641975308641975, 1071428571428571), (9629629629629630, 833333333333334)]

/-- precomputed_ggq_rules_reduced2.cpp L438-450, entry 9 of `S_2_0_precomputed`. -/
def S_2_0_precomputed_row9 : List (Int × Int) := [
  (333333333333333, 750000000000001), (1222222222222222, 964285714285715), (2212121212121212, 997252747252746),
  (3211382113821138, 999801744647107), (4211328976034859, 999985760665262),
  (5000000000000000, 577348066298341), (5788671023965142, 999985760665262),
  (6788617886178862, 999801744647107), (7787878787878789, 997252747252746),
  (8777777777777779, 964285714285715), (9666666666666667, 750000000000001)]

/-- precomputed_ggq_rules_reduced2.cpp L451-464, entry 10 of `S_2_0_precomputed`. -/
def S_2_0_precomputed_row10 : List (Int × Int) := [
  (303030303030302, 681818181818184), (1111111111111111, 876623376623377), (2011019283746557, 906593406593406),
  (2919438285291944, 908910676951914), (3828480887304417, 909077964241146),
  (4654620319438140, 716976393771973), (5345379680561860, 716976393771973),
  (6171519112695584, 909077964241146), (7080561714708056, 908910676951914),
  (7988980716253444, 906593406593406), (8888888888888890, 876623376623377), (9696969696969697, 681818181818184)]

/-- precomputed_ggq_rules_reduced2.cpp L465-479, entry 11 of `S_2_0_precomputed`. -/
def S_2_0_precomputed_row11 : List (Int × Int) := [
  (277777777777779, 624999999999999), (1018518518518518, 803571428571429), (1843434343434344, 831043956043956),
  (2676151761517614, 833168120539254), (3509440813362382, 833321467221054),
  (4342770967114224, 833332481362282), (5000000000000000, 481125092524053),
  (5657229032885775, 833332481362282), (6490559186637619, 833321467221054),
  (7323848238482387, 833168120539254), (8156565656565656, 831043956043956),
  (8981481481481483, 803571428571429), (9722222222222221, 624999999999999)]

/-- precomputed_ggq_rules_reduced2.cpp L480-495, entry 12 of `S_2_0_precomputed`. -/
def S_2_0_precomputed_row12 : List (Int × Int) := [
  (256410256410257, 576923076923079), (940170940170941, 741758241758242), (1701631701631702, 767117497886728),
  (2470293933708569, 769078265113158), (3239483827719122, 769219815896355),
  (4008711661951591, 769229982795952), (4707755516244382, 606673119626487),
  (5292244483755618, 606673119626487), (5991288338048408, 769229982795952),
  (6760516172280878, 769219815896355), (7529706066291432, 769078265113158),
  (8298368298368298, 767117497886728), (9059829059829060, 741758241758242), (9743589743589745, 576923076923079)]

/-- precomputed_ggq_rules_reduced2.cpp L496-512, entry 13 of `S_2_0_precomputed`. -/
def S_2_0_precomputed_row13 : List (Int × Int) := [
  (238095238095239, 535714285714287), (873015873015874, 688775510204081), (1580086580086581, 712323390894819),
  (2293844367015099, 714144103319361), (3008092125739185, 714275543332330),
  (3722375114669336, 714284984024813), (4436660633281938, 714285661855242),
  (5000000000000000, 412393041310135), (5563339366718062, 714285661855242),
  (6277624885330664, 714284984024813), (6991907874260815, 714275543332330),
  (7706155632984901, 714144103319361), (8419913419913420, 712323390894819),
  (9126984126984127, 688775510204081), (9761904761904762, 535714285714287)]

/-- precomputed_ggq_rules_reduced2.cpp L513-530, entry 14 of `S_2_0_precomputed`. -/
def S_2_0_precomputed_row14 : List (Int × Int) := [
  (222222222222222, 500000000000001), (814814814814815, 642857142857143), (1474747474747475, 664835164835165),
  (2140921409214093, 666534496431404), (2807552650689906, 666657173776841),
  (3474216773691380, 666665985089825), (4140883257729809, 666666617731558),
  (4746721438783534, 525783419278063), (5253278561216466, 525783419278063),
  (5859116742270191, 666666617731558), (6525783226308620, 666665985089825),
  (7192447349310094, 666657173776841), (7859078590785908, 666534496431404),
  (8525252525252526, 664835164835165), (9185185185185185, 642857142857143), (9777777777777777, 500000000000001)]

/-- precomputed_ggq_rules_reduced2.cpp L531-549, entry 15 of `S_2_0_precomputed`. -/
def S_2_0_precomputed_row15 : List (Int × Int) := [
  (208333333333332, 468750000000000), (763888888888889, 602678571428572), (1382575757575757, 623282967032967),
  (2007113821138211, 624876090404441), (2632080610021785, 624991100415788),
  (3257078225335668, 624999361021711), (3882078054121695, 624999954123336),
  (4507078041829080, 624999996706206), (5000000000000000, 360843917733961),
  (5492921958170920, 624999996706206), (6117921945878305, 624999954123336),
  (6742921774664331, 624999361021711), (7367919389978215, 624991100415788),
  (7992886178861789, 624876090404441), (8617424242424242, 623282967032967),
  (9236111111111112, 602678571428572), (9791666666666669, 468750000000000)]

/-- precomputed_ggq_rules_reduced2.cpp L550-569, entry 16 of `S_2_0_precomputed`. -/
def S_2_0_precomputed_row16 : List (Int × Int) := [
  (196078431372549, 441176470588237), (718954248366012, 567226890756302), (1301247771836007, 586619263089851),
  (1889048302247728, 588118673321827), (2477252338844034, 588226918038389),
  (3065485388551218, 588234692726316), (3653720521526301, 588235250939610),
  (4241955804074428, 588235291017603), (4776518916027105, 463926549521864),
  (5223481083972894, 463926549521864), (5758044195925572, 588235291017603),
  (6346279478473699, 588235250939610), (6934514611448783, 588234692726316),
  (7522747661155965, 588226918038389), (8110951697752272, 588118673321827),
  (8698752228163993, 586619263089851), (9281045751633987, 567226890756302), (9803921568627451, 441176470588237)]

/-- precomputed_ggq_rules_reduced2.cpp L570-590, entry 17 of `S_2_0_precomputed`. -/
def S_2_0_precomputed_row17 : List (Int × Int) := [
  (185185185185185, 416666666666668), (679012345679013, 535714285714286), (1228956228956229, 554029304029304),
  (1784101174345077, 555445413692836), (2339627208908255, 555547644814034),
  (2895180644742817, 555554987574854), (3450736048108174, 555555514776299),
  (4006291592736959, 555555552627736), (4561847147508007, 555555555345347),
  (5000000000000000, 320750149517271), (5438152852491992, 555555555345347),
  (5993708407263041, 555555552627736), (6549263951891826, 555555514776299),
  (7104819355257184, 555554987574854), (7660372791091745, 555547644814034),
  (8215898825654924, 555445413692836), (8771043771043772, 554029304029304),
  (9320987654320988, 535714285714286), (9814814814814815, 416666666666668)]

/-- precomputed_ggq_rules_reduced2.cpp L591-612, entry 18 of `S_2_0_precomputed`. -/
def S_2_0_precomputed_row18 : List (Int × Int) := [
  (175438596491228, 394736842105264), (643274853801169, 507518796992481), (1164274322169060, 524869866975130),
  (1690201112537441, 526211444551108), (2216488934755189, 526308295086980),
  (2742802716072142, 526315251386704), (3269118361365638, 526315750840704),
  (3795434140487646, 526315786699960), (4321749929218113, 526315789274539),
  (4800043240620718, 415092176087128), (5199956759379283, 415092176087128),
  (5678250070781888, 526315789274539), (6204565859512354, 526315786699960),
  (6730881638634362, 526315750840704), (7257197283927859, 526315251386704),
  (7783511065244813, 526308295086980), (8309798887462558, 526211444551108),
  (8835725677830940, 524869866975130), (9356725146198831, 507518796992481), (9824561403508771, 394736842105264)]

/-- precomputed_ggq_rules_reduced2.cpp L613-635, entry 19 of `S_2_0_precomputed`. -/
def S_2_0_precomputed_row19 : List (Int × Int) := [
  (166666666666667, 375000000000000), (611111111111112, 482142857142858), (1106060606060605, 498626373626374),
  (1605691056910570, 499900872323555), (2105664488017430, 499992880332630),
  (2605662580268535, 499999488817368), (3105662443297356, 499999963298667),
  (3605662433463263, 499999997364962), (4105662432757206, 499999999810812),
  (4605662432706514, 499999999986418), (5000000000000000, 288675134592710),
  (5394337567293486, 499999999986418), (5894337567242793, 499999999810812),
  (6394337566536737, 499999997364962), (6894337556702644, 499999963298667),
  (7394337419731466, 499999488817368), (7894335511982571, 499992880332630),
  (8394308943089430, 499900872323555), (8893939393939394, 498626373626374),
  (9388888888888889, 482142857142858), (9833333333333333, 375000000000000)]

/-- precomputed_ggq_rules_reduced2.cpp L636-659, entry 20 of `S_2_0_precomputed`. -/
def S_2_0_precomputed_row20 : List (Int × Int) := [
  (158730158730159, 357142857142858), (582010582010582, 459183673469388), (1053391053391053, 474882260596547),
  (1529229578010066, 476096068879574), (2005394750492790, 476183695554886),
  (2481583409779557, 476189989349875), (2957773755521292, 476190441236827),
  (3433964222345965, 476190473680917), (3910154697864007, 476190476010297),
  (4386345174006205, 476190476177540), (4819086741511702, 375559587901290),
  (5180913258488298, 375559587901290), (5613654825993795, 476190476177540),
  (6089845302135993, 476190476010297), (6566035777654035, 476190473680917),
  (7042226244478708, 476190441236827), (7518416590220443, 476189989349875),
  (7994605249507211, 476183695554886), (8470770421989934, 476096068879574),
  (8946608946608946, 474882260596547), (9417989417989417, 459183673469388), (9841269841269842, 357142857142858)]

/-- precomputed_ggq_rules_reduced2.cpp L660-684, entry 21 of `S_2_0_precomputed`. -/
def S_2_0_precomputed_row21 : List (Int × Int) := [
  (151515151515152, 340909090909092), (555555555555556, 438311688311688), (1005509641873277, 453296703296703),
  (1459719142645972, 454455338475958), (1914240443652208, 454538982120574),
  (2368784163880486, 454544989833970), (2823329493906688, 454545421180608),
  (3277874939512058, 454545452149966), (3732420393415644, 454545454373466),
  (4186965847915014, 454545454533107), (4641511302457160, 454545454544568),
  (5000000000000000, 262431940540598), (5358488697542839, 454545454544568),
  (5813034152084987, 454545454533107), (6267579606584357, 454545454373466),
  (6722125060487942, 454545452149966), (7176670506093313, 454545421180608),
  (7631215836119514, 454544989833970), (8085759556347792, 454538982120574),
  (8540280857354028, 454455338475958), (8994490358126722, 453296703296703),
  (9444444444444444, 438311688311688), (9848484848484849, 340909090909092)]

/-- precomputed_ggq_rules_reduced2.cpp L685-710, entry 22 of `S_2_0_precomputed`. -/
def S_2_0_precomputed_row22 : List (Int × Int) := [
  (144927536231884, 326086956521740), (531400966183576, 419254658385093), (961791831357050, 433588150979456),
  (1396253092965713, 434696410716133), (1831012598276026, 434776417680549),
  (2265793548059596, 434782164189017), (2700576037649877, 434782576781448),
  (3135358637794143, 434782606404317), (3570141245875834, 434782608531142),
  (4004923854527404, 434782608683840), (4439706463219891, 434782608694803),
  (4834818329206187, 342902232432462), (5165181670793814, 342902232432462),
  (5560293536780110, 434782608694803), (5995076145472596, 434782608683840),
  (6429858754124166, 434782608531142), (6864641362205858, 434782606404317),
  (7299423962350123, 434782576781448), (7734206451940404, 434782164189017),
  (8168987401723974, 434776417680549), (8603746907034288, 434696410716133),
  (9038208168642951, 433588150979456), (9468599033816425, 419254658385093), (9855072463768116, 326086956521740)]

/-- precomputed_ggq_rules_reduced2.cpp L711-737, entry 23 of `S_2_0_precomputed`. -/
def S_2_0_precomputed_row23 : List (Int × Int) := [
  (138888888888888, 312500000000002), (509259259259260, 401785714285714), (921717171717172, 415521978021978),
  (1338075880758808, 416584060269627), (1754720406681191, 416660733610526),
  (2171385483557112, 416666240681141), (2588052036081130, 416666636082223),
  (3004718694552720, 416666664470803), (3421385360631006, 416666666509010),
  (3838052027255429, 416666666655348), (4254718693919062, 416666666665854),
  (4671385360585512, 416666666666609), (5000000000000000, 240562612162332),
  (5328614639414488, 416666666666609), (5745281306080938, 416666666665854),
  (6161947972744571, 416666666655348), (6578614639368995, 416666666509010),
  (6995281305447281, 416666664470803), (7411947963918870, 416666636082223),
  (7828614516442888, 416666240681141), (8245279593318809, 416660733610526),
  (8661924119241192, 416584060269627), (9078282828282829, 415521978021978),
  (9490740740740741, 401785714285714), (9861111111111112, 312500000000002)]

/-- precomputed_ggq_rules_reduced2.cpp L738-765, entry 24 of `S_2_0_precomputed`. -/
def S_2_0_precomputed_row24 : List (Int × Int) := [
  (133333333333334, 300000000000001), (488888888888890, 385714285714286), (884848484848485, 398901098901099),
  (1284552845528456, 399920697858842), (1684531590413943, 399994304266105),
  (2084530064214828, 399999591053895), (2484529954637885, 399999970638935),
  (2884529946770610, 399999997891970), (3284529946205766, 399999999848650),
  (3684529946165212, 399999999989134), (4084529946162300, 399999999999220),
  (4484529946162091, 399999999999944), (4848032862869683, 315470053837919),
  (5151967137130318, 315470053837919), (5515470053837910, 399999999999944),
  (5915470053837699, 399999999999220), (6315470053834789, 399999999989134),
  (6715470053794235, 399999999848650), (7115470053229389, 399999997891970),
  (7515470045362115, 399999970638935), (7915469935785172, 399999591053895),
  (8315468409586056, 399994304266105), (8715447154471545, 399920697858842),
  (9115151515151515, 398901098901099), (9511111111111111, 385714285714286), (9866666666666667, 300000000000001)]

/-- precomputed_ggq_rules_reduced2.cpp L766-794, entry 25 of `S_2_0_precomputed`. -/
def S_2_0_precomputed_row25 : List (Int × Int) := [
  (128205128205128, 288461538461540), (470085470085470, 370879120879123), (850815850815850, 383558748943363),
  (1235146966854283, 384539132556578), (1619741913859561, 384609907948179),
  (2004355830975796, 384614991397975), (2388971110228736, 384615356383591),
  (2773586487279433, 384615382588433), (3158201871351698, 384615384469856),
  (3542817255928088, 384615384604936), (3927432640540673, 384615384614636),
  (4312048025155856, 384615384615330), (4696663409771227, 384615384615381),
  (5000000000000000, 222057795842160), (5303336590228772, 384615384615381),
  (5687951974844143, 384615384615330), (6072567359459327, 384615384614636),
  (6457182744071912, 384615384604936), (6841798128648302, 384615384469856),
  (7226413512720566, 384615382588433), (7611028889771264, 384615356383591),
  (7995644169024204, 384614991397975), (8380258086140440, 384609907948179),
  (8764853033145716, 384539132556578), (9149184149184150, 383558748943363),
  (9529914529914530, 370879120879123), (9871794871794872, 288461538461540)]

/-- precomputed_ggq_rules_reduced2.cpp L795-824, entry 26 of `S_2_0_precomputed`. -/
def S_2_0_precomputed_row26 : List (Int × Int) := [
  (123456790123457, 277777777777779), (452674897119342, 357142857142856), (819304152637487, 369352869352870),
  (1189400782896717, 370296942461890), (1559751472605503, 370365096542690),
  (1930120429828544, 370369991716569), (2300490698738784, 370370343184199),
  (2670861061824639, 370370368418492), (3041231431672005, 370370370230232),
  (3411601802004825, 370370370360309), (3781972172372501, 370370370369648),
  (4152342542742677, 370370370370319), (4522712913113033, 370370370370367),
  (4859289687842298, 292101901701781), (5140710312157702, 292101901701781),
  (5477287086886967, 370370370370367), (5847657457257323, 370370370370319),
  (6218027827627500, 370370370369648), (6588398197995174, 370370370360309),
  (6958768568327995, 370370370230232), (7329138938175360, 370370368418492),
  (7699509301261217, 370370343184199), (8069879570171455, 370369991716569),
  (8440248527394497, 370365096542690), (8810599217103283, 370296942461890),
  (9180695847362513, 369352869352870), (9547325102880658, 357142857142856), (9876543209876544, 277777777777779)]

/-- precomputed_ggq_rules_reduced2.cpp L825-855, entry 27 of `S_2_0_precomputed`. -/
def S_2_0_precomputed_row27 : List (Int × Int) := [
  (119047619047619, 267857142857144), (436507936507937, 344387755102040), (790043290043290, 356161695447410),
  (1146922183507549, 357072051659680), (1504046062869592, 357137771666165),
  (1861187557334667, 357142492012406), (2218330316640969, 357142830927621),
  (2575473166759474, 357142855260688), (2932616023398006, 357142857007723),
  (3289758880504654, 357142857133155), (3646901737644910, 357142857142161),
  (4004044594787581, 357142857142807), (4361187451930424, 357142857142854),
  (4718330309073281, 357142857142858), (5000000000000000, 206196524710578),
  (5281669690926719, 357142857142858), (5638812548069575, 357142857142854),
  (5995955405212419, 357142857142807), (6353098262355089, 357142857142161),
  (6710241119495347, 357142857133155), (7067383976601995, 357142857007723),
  (7424526833240527, 357142855260688), (7781669683359030, 357142830927621),
  (8138812442665333, 357142492012406), (8495953937130408, 357137771666165),
  (8853077816492451, 357072051659680), (9209956709956710, 356161695447410),
  (9563492063492064, 344387755102040), (9880952380952381, 267857142857144)]

/-- precomputed_ggq_rules_reduced2.cpp L856-887, entry 28 of `S_2_0_precomputed`. -/
def S_2_0_precomputed_row28 : List (Int × Int) := [
  (114942528735632, 258620689655174), (421455938697318, 332512315270936), (762800417972832, 343880257673362),
  (1107373142696944, 344759222292106), (1452182405529262, 344822676091470),
  (1797008676047266, 344827233667151), (2141836167791281, 344827560895634),
  (2486663747216044, 344827584389629), (2831491332936006, 344827586076423),
  (3176318919107941, 344827586197529), (3521146505312329, 344827586206225),
  (3865974091519044, 344827586206847), (4210801677725928, 344827586206892),
  (4555629263932824, 344827586206897), (4868993847301450, 271956942963728),
  (5131006152698551, 271956942963728), (5444370736067177, 344827586206897),
  (5789198322274073, 344827586206892), (6134025908480957, 344827586206847),
  (6478853494687672, 344827586206225), (6823681080892059, 344827586197529),
  (7168508667063995, 344827586076423), (7513336252783956, 344827584389629),
  (7858163832208720, 344827560895634), (8202991323952734, 344827233667151),
  (8547817594470738, 344822676091470), (8892626857303055, 344759222292106),
  (9237199582027168, 343880257673362), (9578544061302682, 332512315270936), (9885057471264368, 258620689655174)]

/-- `S_2_0_precomputed`, precomputed_ggq_rules_reduced2.cpp L364-888. -/
def S_2_0_precomputed : List (List (Int × Int)) := [
  S_2_0_precomputed_row0, S_2_0_precomputed_row1, S_2_0_precomputed_row2, S_2_0_precomputed_row3,
  S_2_0_precomputed_row4, S_2_0_precomputed_row5, S_2_0_precomputed_row6, S_2_0_precomputed_row7,
  S_2_0_precomputed_row8, S_2_0_precomputed_row9, S_2_0_precomputed_row10, S_2_0_precomputed_row11,
  S_2_0_precomputed_row12, S_2_0_precomputed_row13, S_2_0_precomputed_row14, S_2_0_precomputed_row15,
  S_2_0_precomputed_row16, S_2_0_precomputed_row17, S_2_0_precomputed_row18, S_2_0_precomputed_row19,
  S_2_0_precomputed_row20, S_2_0_precomputed_row21, S_2_0_precomputed_row22, S_2_0_precomputed_row23,
  S_2_0_precomputed_row24, S_2_0_precomputed_row25, S_2_0_precomputed_row26, S_2_0_precomputed_row27,
  S_2_0_precomputed_row28]

/-- precomputed_ggq_rules_reduced2.cpp L892-896, entry 0 of `S_4_1_precomputed`. -/
def S_4_1_precomputed_row0 : List (Int × Int) := [
  (1127016653792578, 2777777777777771), (5000000000000000, 4444444444444459),
  (8872983346207423, 2777777777777771)]

/-- precomputed_ggq_rules_reduced2.cpp L897-902, entry 1 of `S_4_1_precomputed`. -/
def S_4_1_precomputed_row1 : List (Int × Int) := [
  (840015957404974, 2041661856725904), (3536674364363113, 2958338143274097),
  (6463325635636886, 2958338143274097), (9159984042595026, 2041661856725904)]

/-- precomputed_ggq_rules_reduced2.cpp L903-910, entry 2 of `S_4_1_precomputed`. -/
def S_4_1_precomputed_row2 : List (Int × Int) := [
  (553079595389641, 1343836701290835), (2320081270127601, 1907192105293529),
  (4106981135795873, 1748971193415636), (5893018864204127, 1748971193415636),
  (7679918729872398, 1907192105293529), (9446920404610359, 1343836701290835)]

/-- precomputed_ggq_rules_reduced2.cpp L911-919, entry 3 of `S_4_1_precomputed`. -/
def S_4_1_precomputed_row3 : List (Int × Int) := [
  (423022704969140, 1028361351887020), (1785402707463676, 1512099360885742),
  (3350675376283279, 1653631662321409), (5000000000000000, 1611815249811657),
  (6649324623716721, 1653631662321409), (8214597292536323, 1512099360885742),
  (9576977295030860, 1028361351887020)]

/-- precomputed_ggq_rules_reduced2.cpp L920-930, entry 4 of `S_4_1_precomputed`. -/
def S_4_1_precomputed_row4 : List (Int × Int) := [
  (338256470496926, 822284884842790), (1427394131071868, 1207817402256454),
  (2673835465338997, 1313059881339376), (3934343482548174, 1123504498228044),
  (5000000000000000, 1066666666666672), (6065656517451826, 1123504498228044),
  (7326164534661004, 1313059881339376), (8572605868928133, 1207817402256454),
  (9661743529503075, 822284884842790)]

/-- precomputed_ggq_rules_reduced2.cpp L931-942, entry 5 of `S_4_1_precomputed`. -/
def S_4_1_precomputed_row5 : List (Int × Int) := [
  (282015136646093, 685574234591346), (1190268471642450, 1008066240590495),
  (2233783584188851, 1102421108214273), (3334691127117553, 1078945657191661),
  (4444448018122920, 1124992759412225), (5555551981877079, 1124992759412225),
  (6665308872882447, 1078945657191661), (7766216415811148, 1102421108214273),
  (8809731528357549, 1008066240590495), (9717984863353908, 685574234591346)]

/-- precomputed_ggq_rules_reduced2.cpp L943-956, entry 6 of `S_4_1_precomputed`. -/
def S_4_1_precomputed_row6 : List (Int × Int) := [
  (241727018273491, 587634453972662), (1020228729884465, 864053983334328), (1914661702265409, 944918080343504),
  (2855213768377192, 914840770918623), (3783838475515739, 916899632365686),
  (4610485738306974, 771653079065196), (5389514261693026, 771653079065196),
  (6216161524484261, 916899632365686), (7144786231622809, 914840770918623),
  (8085338297734591, 944918080343504), (8979771270115536, 864053983334328), (9758272981726509, 587634453972662)]

/-- precomputed_ggq_rules_reduced2.cpp L957-971, entry 7 of `S_4_1_precomputed`. -/
def S_4_1_precomputed_row7 : List (Int × Int) := [
  (211511352484570, 514180675943510), (892701353731838, 756049680442872), (1675337688141639, 826815831160705),
  (2501018397183385, 809209410885865), (3333336460377636, 843745473203148),
  (4166667113182367, 843749095807406), (5000000000000000, 812499665112991),
  (5833332886817634, 843749095807406), (6666663539622365, 843745473203148),
  (7498981602816616, 809209410885865), (8324662311858361, 826815831160705),
  (9107298646268163, 756049680442872), (9788488647515431, 514180675943510)]

/-- precomputed_ggq_rules_reduced2.cpp L972-988, entry 8 of `S_4_1_precomputed`. -/
def S_4_1_precomputed_row8 : List (Int × Int) := [
  (188010091097396, 457049489727567), (793512314428302, 672044160393660), (1489189056125902, 734947405476181),
  (2223063849341778, 719091116812246), (2962417983127736, 748890922972168),
  (3699833406102173, 744274083067184), (4406868941858704, 627406525254699),
  (5000000000000000, 592592592592591), (5593131058141295, 627406525254699),
  (6300166593897828, 744274083067184), (7037582016872265, 748890922972168),
  (7776936150658221, 719091116812246), (8510810943874098, 734947405476181),
  (9206487685571698, 672044160393660), (9811989908902604, 457049489727567)]

/-- precomputed_ggq_rules_reduced2.cpp L989-1006, entry 9 of `S_4_1_precomputed`. -/
def S_4_1_precomputed_row9 : List (Int × Int) := [
  (169209081987656, 411344540754807), (714161082985470, 604839744354298), (1340270150513310, 661452664928564),
  (2000814717746707, 647367528708691), (2666669168302107, 674996378562519),
  (3333333690545894, 674999276645926), (4000000041216871, 649999866045206),
  (4666666666666672, 674999999999990), (5333333333333329, 674999999999990),
  (5999999958783130, 649999866045206), (6666666309454107, 674999276645926),
  (7333330831697893, 674996378562519), (7999185282253293, 647367528708691),
  (8659729849486689, 661452664928564), (9285838917014529, 604839744354298), (9830790918012345, 411344540754807)]

/-- precomputed_ggq_rules_reduced2.cpp L1007-1026, entry 10 of `S_4_1_precomputed`. -/
def S_4_1_precomputed_row10 : List (Int × Int) := [
  (153826438170597, 373949582504371), (649237348168610, 549854313049360), (1218427409557556, 601320604480514),
  (1818922205117582, 588515074701435), (2424242409943288, 613628442849668),
  (3030287327364478, 613612473562063), (3634387583802788, 584585965214755),
  (4226079029873653, 583481584232708), (4752127288013529, 491051959405125),
  (5247872711986472, 491051959405125), (5773920970126348, 583481584232708),
  (6365612416197213, 584585965214755), (6969712672635522, 613612473562063),
  (7575757590056712, 613628442849668), (8181077794882419, 588515074701435),
  (8781572590442445, 601320604480514), (9350762651831390, 549854313049360), (9846173561829403, 373949582504371)]

/-- precomputed_ggq_rules_reduced2.cpp L1027-1047, entry 11 of `S_4_1_precomputed`. -/
def S_4_1_precomputed_row11 : List (Int × Int) := [
  (141007568323047, 342787117295673), (595134235821226, 504033120295248), (1116891792094427, 551210554107138),
  (1667345598122257, 539472940590575), (2222224306918423, 562496982135433),
  (2777778075454911, 562499397204938), (3333333367680726, 541666555037672),
  (3888888888888893, 562499999999993), (4444444444444446, 562500000000000),
  (5000000000000000, 541666666666664), (5555555555555555, 562500000000000),
  (6111111111111107, 562499999999993), (6666666632319275, 541666555037672),
  (7222221924545089, 562499397204938), (7777775693081577, 562496982135433),
  (8332654401877743, 539472940590575), (8883108207905573, 551210554107138),
  (9404865764178775, 504033120295248), (9858992431676954, 342787117295673)]

/-- precomputed_ggq_rules_reduced2.cpp L1048-1070, entry 12 of `S_4_1_precomputed`. -/
def S_4_1_precomputed_row12 : List (Int × Int) := [
  (130160832298197, 316418877503698), (549354679219592, 465261341810998), (1030977038856393, 508809742252742),
  (1539088244264110, 497975021576721), (2051283974268905, 519227980783031),
  (2564102829450959, 519230199163695), (3076879327839014, 499857667020221),
  (3589364629297005, 518465355774351), (4099884423522853, 515267146760099),
  (4589370772409875, 434358462226238), (5000000000000000, 410256410256416),
  (5410629227590126, 434358462226238), (5900115576477148, 515267146760099),
  (6410635370702996, 518465355774351), (6923120672160987, 499857667020221),
  (7435897170549042, 519230199163695), (7948716025731094, 519227980783031),
  (8460911755735890, 497975021576721), (8969022961143608, 508809742252742),
  (9450645320780409, 465261341810998), (9869839167701804, 316418877503698)]

/-- precomputed_ggq_rules_reduced2.cpp L1071-1094, entry 13 of `S_4_1_precomputed`. -/
def S_4_1_precomputed_row13 : List (Int × Int) := [
  (120863629991182, 293817529110576), (510115059275336, 432028388824498), (957335821795223, 472466189234688),
  (1429153369819078, 462405377649065), (1904763691644363, 482140270401801),
  (2380952636104209, 482142340461374), (2857142886583480, 464285618603718),
  (3333333333333338, 482142857142852), (3809523809523811, 482142857142857),
  (4285714285714285, 464285714285712), (4761904761904761, 482142857142859),
  (5238095238095238, 482142857142859), (5714285714285714, 464285714285712),
  (6190476190476190, 482142857142857), (6666666666666663, 482142857142852),
  (7142857113416521, 464285618603718), (7619047363895790, 482142340461374),
  (8095236308355637, 482140270401801), (8570846630180923, 462405377649065),
  (9042664178204778, 472466189234688), (9489884940724664, 432028388824498), (9879136370008818, 293817529110576)]

/-- precomputed_ggq_rules_reduced2.cpp L1095-1120, entry 14 of `S_4_1_precomputed`. -/
def S_4_1_precomputed_row14 : List (Int × Int) := [
  (112806054658437, 274229693836538), (476107388656981, 403226496236199), (893513433675541, 440968443285710),
  (1333876478497802, 431578352472451), (1777779445534716, 449997585708302),
  (2222222460363773, 449999517763724), (2666666500629117, 433332615105899),
  (3111109433987309, 449996603869154), (3555543801655214, 449982961862144),
  (3998550866864795, 428696464525467), (4432457955240677, 427886495103987),
  (4818226677876589, 360104770230425), (5181773322123412, 360104770230425),
  (5567542044759323, 427886495103987), (6001449133135205, 428696464525467),
  (6444456198344786, 449982961862144), (6888890566012692, 449996603869154),
  (7333333499370882, 433332615105899), (7777777539636228, 449999517763724),
  (8222220554465285, 449997585708302), (8666123521502198, 431578352472451),
  (9106486566324459, 440968443285710), (9523892611343019, 403226496236199), (9887193945341564, 274229693836538)]

/-- precomputed_ggq_rules_reduced2.cpp L1121-1147, entry 15 of `S_4_1_precomputed`. -/
def S_4_1_precomputed_row15 : List (Int × Int) := [
  (105755676242284, 257090337971755), (446350676865920, 378024840221435), (837668844070820, 413407915580354),
  (1250509198591693, 404604705442931), (1666668230188818, 421872736601574),
  (2083333556591185, 421874547903705), (2500000025760544, 406249916278252),
  (2916666666666670, 421874999999995), (3333333333333334, 421875000000001),
  (3750000000000000, 406249999999997), (4166666666666666, 421875000000001),
  (4583333333333334, 421875000000002), (5000000000000000, 406249999999997),
  (5416666666666666, 421875000000002), (5833333333333334, 421875000000001),
  (6250000000000001, 406249999999997), (6666666666666666, 421875000000001),
  (7083333333333330, 421874999999995), (7499999974239455, 406249916278252),
  (7916666443408816, 421874547903705), (8333331769811182, 421872736601574),
  (8749490801408307, 404604705442931), (9162331155929180, 413407915580354),
  (9553649323134080, 378024840221435), (9894244323757716, 257090337971755)]

/-- precomputed_ggq_rules_reduced2.cpp L1148-1176, entry 16 of `S_4_1_precomputed`. -/
def S_4_1_precomputed_row16 : List (Int × Int) := [
  (99534754110386, 241967376914594), (420094754697336, 355788084914294), (788394206184304, 389089802899156),
  (1176949833968653, 380804428652170), (1568628922530653, 397056693272068),
  (1960784523850526, 397058398027016), (2352941200596768, 382352861992658),
  (2745098038184023, 397058821440278), (3137254894738879, 397058813082831),
  (3529378285267889, 382244177125194), (3921278834168297, 396473507356856),
  (4311676323870417, 394027818110662), (4685989414195788, 332156471114183),
  (5000000000000000, 313725490196078), (5314010585804212, 332156471114183),
  (5688323676129584, 394027818110662), (6078721165831702, 396473507356856),
  (6470621714732112, 382244177125194), (6862745105261121, 397058813082831),
  (7254901961815976, 397058821440278), (7647058799403232, 382352861992658),
  (8039215476149475, 397058398027016), (8431371077469347, 397056693272068),
  (8823050166031348, 380804428652170), (9211605793815697, 389089802899156),
  (9579905245302663, 355788084914294), (9900465245889614, 241967376914594)]

/-- precomputed_ggq_rules_reduced2.cpp L1177-1206, entry 17 of `S_4_1_precomputed`. -/
def S_4_1_precomputed_row17 : List (Int × Int) := [
  (94005045548696, 228524744863780), (396756157214149, 336022080196833), (744594528062952, 367473702738092),
  (1111563732081505, 359648627060383), (1481482871278949, 374997988090288),
  (1851852050303274, 374999598136624), (2222222245120484, 361111036691780),
  (2592592592592595, 374999999999996), (2962962962962964, 375000000000000),
  (3333333333333335, 361111111111109), (3703703703703703, 375000000000001),
  (4074074074074075, 375000000000002), (4444444444444445, 361111111111109),
  (4814814814814815, 375000000000001), (5185185185185186, 375000000000001),
  (5555555555555556, 361111111111109), (5925925925925924, 375000000000002),
  (6296296296296297, 375000000000001), (6666666666666666, 361111111111109),
  (7037037037037036, 375000000000000), (7407407407407406, 374999999999996),
  (7777777754879517, 361111036691780), (8148147949696726, 374999598136624),
  (8518517128721050, 374997988090288), (8888436267918495, 359648627060383),
  (9255405471937049, 367473702738092), (9603243842785851, 336022080196833), (9905994954451305, 228524744863780)]

/-- precomputed_ggq_rules_reduced2.cpp L1207-1238, entry 18 of `S_4_1_precomputed`. -/
def S_4_1_precomputed_row18 : List (Int × Int) := [
  (89057411572450, 216497126713056), (375874254202880, 318336707554893), (705405342375428, 348132981541350),
  (1053060377761427, 340719751951942), (1403510088580058, 355261251875010),
  (1754386152918891, 355262777182065), (2105263179587824, 342105192655362),
  (2456140350877173, 355263157894685), (2807017543859482, 355263157894494),
  (3157894584066698, 342104766638843), (3508770605779454, 355260476738807),
  (3859639843412012, 355249706733272), (4209382263314311, 338444577256949),
  (4551940490979483, 337805127713674), (4856494745692042, 284293239655599),
  (5143505254307957, 284293239655599), (5448059509020517, 337805127713674),
  (5790617736685688, 338444577256949), (6140360156587990, 355249706733272),
  (6491229394220546, 355260476738807), (6842105415933303, 342104766638843),
  (7192982456140518, 355263157894494), (7543859649122828, 355263157894685),
  (7894736820412176, 342105192655362), (8245613847081109, 355262777182065),
  (8596489911419942, 355261251875010), (8946939622238574, 340719751951942),
  (9294594657624573, 348132981541350), (9624125745797121, 318336707554893), (9910942588427549, 216497126713056)]

/-- precomputed_ggq_rules_reduced2.cpp L1239-1271, entry 19 of `S_4_1_precomputed`. -/
def S_4_1_precomputed_row19 : List (Int × Int) := [
  (84604540993826, 205672270377399), (357080541492732, 302419872177151), (670135075256656, 330726332464283),
  (1000407358873354, 323683764354345), (1333334584151053, 337498189281260),
  (1666666845272946, 337499638322963), (2000000020608436, 324999933022603),
  (2333333333333336, 337499999999996), (2666666666666668, 337500000000001),
  (3000000000000000, 324999999999997), (3333333333333333, 337500000000002),
  (3666666666666666, 337500000000000), (4000000000000000, 325000000000000),
  (4333333333333333, 337500000000000), (4666666666666667, 337500000000001),
  (5000000000000000, 324999999999997), (5333333333333333, 337500000000001),
  (5666666666666667, 337500000000000), (6000000000000000, 325000000000000),
  (6333333333333334, 337500000000000), (6666666666666667, 337500000000002),
  (7000000000000000, 324999999999997), (7333333333333333, 337500000000001),
  (7666666666666664, 337499999999996), (7999999979391564, 324999933022603),
  (8333333154727054, 337499638322963), (8666665415848948, 337498189281260),
  (8999592641126647, 323683764354345), (9329864924743345, 330726332464283),
  (9642919458507269, 302419872177151), (9915395459006174, 205672270377399)]

/-- precomputed_ggq_rules_reduced2.cpp L1272-1306, entry 20 of `S_4_1_precomputed`. -/
def S_4_1_precomputed_row20 : List (Int × Int) := [
  (80575753327455, 195878352740384), (340076706183558, 288018925882998), (638223881196815, 314977459489793),
  (952768913212719, 308270251766043), (1269842461096242, 321426846934533), (1587301757402807, 321428226974250),
  (1904761924388986, 309523745735812), (2222222222222225, 321428571428568),
  (2539682539682541, 321428571428571), (2857142857046494, 309523809210623),
  (3174603173768016, 321428569737375), (3492063486217189, 321428562971816),
  (3809496707121624, 309435762434679), (4126749532421955, 320954744050790),
  (4442785595514147, 318974900375300), (4745800954348970, 268888571854335),
  (5000000000000000, 253968253968259), (5254199045651029, 268888571854335),
  (5557214404485853, 318974900375300), (5873250467578045, 320954744050790),
  (6190503292878377, 309435762434679), (6507936513782812, 321428562971816),
  (6825396826231985, 321428569737375), (7142857142953507, 309523809210623),
  (7460317460317459, 321428571428571), (7777777777777776, 321428571428568),
  (8095238075611014, 309523745735812), (8412698242597193, 321428226974250),
  (8730157538903758, 321426846934533), (9047231086787281, 308270251766043),
  (9361776118803184, 314977459489793), (9659923293816443, 288018925882998), (9919424246672545, 195878352740384)]

/-- precomputed_ggq_rules_reduced2.cpp L1307-1342, entry 21 of `S_4_1_precomputed`. -/
def S_4_1_precomputed_row21 : List (Int × Int) := [
  (76913219085297, 186974791252184), (324618674084304, 274927156524681), (609213704778778, 300660302240257),
  (909461235339412, 294257967594859), (1212122349228230, 306816535710236), (1515151677520861, 306817853020876),
  (1818181836916760, 295454484566001), (2121212121212123, 306818181818179),
  (2424242424242425, 306818181818183), (2727272727272728, 295454545454543),
  (3030303030303030, 306818181818183), (3333333333333334, 306818181818183),
  (3636363636363636, 295454545454543), (3939393939393939, 306818181818183),
  (4242424242424244, 306818181818183), (4545454545454545, 295454545454544),
  (4848484848484848, 306818181818183), (5151515151515152, 306818181818183),
  (5454545454545454, 295454545454544), (5757575757575757, 306818181818183),
  (6060606060606062, 306818181818183), (6363636363636364, 295454545454543),
  (6666666666666666, 306818181818183), (6969696969696970, 306818181818183),
  (7272727272727273, 295454545454543), (7575757575757575, 306818181818183),
  (7878787878787876, 306818181818179), (8181818163083241, 295454484566001),
  (8484848322479139, 306817853020876), (8787877650771769, 306816535710236),
  (9090538764660587, 294257967594859), (9390786295221223, 300660302240257),
  (9675381325915696, 274927156524681), (9923086780914703, 186974791252184)]

/-- precomputed_ggq_rules_reduced2.cpp L1343-1380, entry 22 of `S_4_1_precomputed`. -/
def S_4_1_precomputed_row22 : List (Int × Int) := [
  (73569166081589, 178845452502090), (310504818689334, 262973801893173), (582726152397092, 287588115186333),
  (869919442498569, 281464142916821), (1159421377522656, 293476686331530), (1449275517628650, 293477946367794),
  (1739130452702988, 282608637410958), (2028985507246379, 293478260869562),
  (2318840579710146, 293478260869566), (2608695652173911, 282608695652164),
  (2898550724637661, 293478260869526), (3188405797101311, 293478260869366),
  (3478260743359445, 282608285484261), (3768114848252592, 293476046001623),
  (4057963348905575, 293467149040529), (4346881000129215, 279584650777478),
  (4629863883852616, 279056409850427), (4881452181223862, 234850937106799),
  (5118547818776138, 234850937106799), (5370136116147384, 279056409850427),
  (5653118999870785, 279584650777478), (5942036651094426, 293467149040529),
  (6231885151747408, 293476046001623), (6521739256640555, 282608285484261),
  (6811594202898689, 293478260869366), (7101449275362339, 293478260869526),
  (7391304347826089, 282608695652164), (7681159420289854, 293478260869566),
  (7971014492753621, 293478260869562), (8260869547297013, 282608637410958),
  (8550724482371350, 293477946367794), (8840578622477344, 293476686331530),
  (9130080557501431, 281464142916821), (9417273847602907, 287588115186333),
  (9689495181310666, 262973801893173), (9926430833918410, 178845452502090)]

/-- precomputed_ggq_rules_reduced2.cpp L1381-1419, entry 23 of `S_4_1_precomputed`. -/
def S_4_1_precomputed_row23 : List (Int × Int) := [
  (70503784161523, 171393558647836), (297567117910613, 252016560147624), (558445896047214, 275605277053570),
  (833672799061129, 269736470295286), (1111112153459211, 281248491067717), (1388889037727457, 281249698602469),
  (1666666683840363, 270833277518835), (1944444444444446, 281249999999997),
  (2222222222222224, 281250000000001), (2500000000000001, 270833333333331),
  (2777777777777778, 281250000000001), (3055555555555556, 281250000000001),
  (3333333333333333, 270833333333331), (3611111111111110, 281250000000002),
  (3888888888888890, 281250000000001), (4166666666666667, 270833333333331),
  (4444444444444444, 281250000000001), (4722222222222223, 281250000000001),
  (5000000000000000, 270833333333331), (5277777777777778, 281250000000001),
  (5555555555555556, 281250000000001), (5833333333333333, 270833333333331),
  (6111111111111110, 281250000000001), (6388888888888890, 281250000000002),
  (6666666666666667, 270833333333331), (6944444444444444, 281250000000001),
  (7222222222222222, 281250000000001), (7500000000000000, 270833333333331),
  (7777777777777777, 281250000000001), (8055555555555554, 281249999999997),
  (8333333316159637, 270833277518835), (8611110962272545, 281249698602469),
  (8888887846540788, 281248491067717), (9166327200938872, 269736470295286),
  (9441554103952786, 275605277053570), (9702432882089387, 252016560147624), (9929496215838477, 171393558647836)]

/-- precomputed_ggq_rules_reduced2.cpp L1420-1460, entry 24 of `S_4_1_precomputed`. -/
def S_4_1_precomputed_row24 : List (Int × Int) := [
  (67683632795062, 164537816301923), (285664433194188, 241935897741719), (536108060205324, 264581065971425),
  (800325887098683, 258947011483477), (1066667667320844, 269998551425007), (1333333476218357, 269999710658369),
  (1600000016486748, 259999946418083), (1866666666666669, 269999999999996),
  (2133333333333334, 269999999999999), (2400000000000000, 260000000000000),
  (2666666666666667, 270000000000000), (2933333333333333, 270000000000000),
  (3199999999919054, 259999999736925), (3466666665965133, 269999998579394),
  (3733333328422437, 269999992896324), (3999977233982164, 259926040445132),
  (4266469607234443, 269601985002662), (4531939900231883, 267938916315251),
  (4786472801653135, 225866400357645), (5000000000000000, 213333333333333),
  (5213527198346865, 225866400357645), (5468060099768117, 267938916315251),
  (5733530392765558, 269601985002662), (6000022766017835, 259926040445132),
  (6266666671577562, 269999992896324), (6533333334034868, 269999998579394),
  (6800000000080947, 259999999736925), (7066666666666667, 270000000000000),
  (7333333333333333, 270000000000000), (7600000000000000, 260000000000000),
  (7866666666666666, 269999999999999), (8133333333333331, 269999999999996),
  (8399999983513251, 259999946418084), (8666666523781643, 269999710658370),
  (8933332332679157, 269998551425007), (9199674112901317, 258947011483478),
  (9463891939794675, 264581065971425), (9714335566805812, 241935897741718), (9932316367204937, 164537816301923)]

/-- `S_4_1_precomputed`, precomputed_ggq_rules_reduced2.cpp L890-1461. -/
def S_4_1_precomputed : List (List (Int × Int)) := [
  S_4_1_precomputed_row0, S_4_1_precomputed_row1, S_4_1_precomputed_row2, S_4_1_precomputed_row3,
  S_4_1_precomputed_row4, S_4_1_precomputed_row5, S_4_1_precomputed_row6, S_4_1_precomputed_row7,
  S_4_1_precomputed_row8, S_4_1_precomputed_row9, S_4_1_precomputed_row10, S_4_1_precomputed_row11,
  S_4_1_precomputed_row12, S_4_1_precomputed_row13, S_4_1_precomputed_row14, S_4_1_precomputed_row15,
  S_4_1_precomputed_row16, S_4_1_precomputed_row17, S_4_1_precomputed_row18, S_4_1_precomputed_row19,
  S_4_1_precomputed_row20, S_4_1_precomputed_row21, S_4_1_precomputed_row22, S_4_1_precomputed_row23,
  S_4_1_precomputed_row24]

/-- precomputed_ggq_rules_reduced2.cpp L1465-1470, entry 0 of `S_6_2_precomputed`. -/
def S_6_2_precomputed_row0 : List (Int × Int) := [
  (694318442029719, 1739274225687231), (3300094782075688, 3260725774312769),
  (6699905217924312, 3260725774312769), (9305681557970281, 1739274225687231)]

/-- precomputed_ggq_rules_reduced2.cpp L1471-1478, entry 1 of `S_6_2_precomputed`. -/
def S_6_2_precomputed_row1 : List (Int × Int) := [
  (462127372182609, 1150241814446763), (2137978506000205, 2030726134378338),
  (4139622006490055, 1819032051174899), (5860377993509945, 1819032051174899),
  (7862021493999795, 2030726134378338), (9537872627817391, 1150241814446763)]

/-- precomputed_ggq_rules_reduced2.cpp L1479-1488, entry 2 of `S_6_2_precomputed`. -/
def S_6_2_precomputed_row2 : List (Int × Int) := [
  (325092123323450, 809355032343454), (1506179860251612, 1434976690388520),
  (2949149000847149, 1371362698156598), (4291938758886458, 1384305579111429),
  (5708061241113542, 1384305579111429), (7050850999152851, 1371362698156598),
  (8493820139748388, 1434976690388520), (9674907876676551, 809355032343454)]

/-- precomputed_ggq_rules_reduced2.cpp L1489-1500, entry 3 of `S_6_2_precomputed`. -/
def S_6_2_precomputed_row3 : List (Int × Int) := [
  (246743500615348, 614357020936559), (1143880665168554, 1091255809737415),
  (2256962483337999, 1094400655199395), (3380344004213716, 1176185439661087),
  (4516228501881734, 1023801074465545), (5483771498118265, 1023801074465545),
  (6619655995786285, 1176185439661087), (7743037516662000, 1094400655199395),
  (8856119334831447, 1091255809737415), (9753256499384653, 614357020936559)]

/-- precomputed_ggq_rules_reduced2.cpp L1501-1514, entry 4 of `S_6_2_precomputed`. -/
def S_6_2_precomputed_row4 : List (Int × Int) := [
  (197962209047663, 492910399788134), (917875792865923, 875944748749091), (1815412160208139, 892041709450743),
  (2747970522897314, 989931042677409), (3719430379274394, 901945075467439),
  (4568852453898801, 847227023867184), (5431147546101200, 847227023867184),
  (6280569620725606, 901945075467439), (7252029477102687, 989931042677409),
  (8184587839791861, 892041709450743), (9082124207134077, 875944748749091), (9802037790952337, 492910399788134)]

/-- precomputed_ggq_rules_reduced2.cpp L1515-1530, entry 5 of `S_6_2_precomputed`. -/
def S_6_2_precomputed_row5 : List (Int × Int) := [
  (165086061641536, 411053859515186), (765470828930845, 730563823828533), (1514953240874572, 747023894092147),
  (2299728116229653, 836367712948904), (3130182983890429, 793189528196777),
  (3912070509149185, 795010947099664), (4675537626451365, 686790234318789),
  (5324462373548635, 686790234318789), (6087929490850814, 795010947099664),
  (6869817016109572, 793189528196777), (7700271883770348, 836367712948904),
  (8485046759125429, 747023894092147), (9234529171069155, 730563823828533), (9834913938358465, 411053859515186)]

/-- precomputed_ggq_rules_reduced2.cpp L1531-1548, entry 6 of `S_6_2_precomputed`. -/
def S_6_2_precomputed_row6 : List (Int × Int) := [
  (141527640593265, 352395416512497), (656241479349966, 626328860805046), (1298989530885073, 641106189878872),
  (1973329881068672, 719404156736926), (2690357321806054, 691221339466394),
  (3384207110697816, 716279568548666), (4083335202423711, 647467062394991),
  (4691801756588799, 605797405656608), (5308198243411202, 605797405656608),
  (5916664797576290, 647467062394991), (6615792889302183, 716279568548666),
  (7309642678193947, 691221339466394), (8026670118931329, 719404156736926),
  (8701010469114927, 641106189878872), (9343758520650034, 626328860805046), (9858472359406735, 352395416512497)]

/-- precomputed_ggq_rules_reduced2.cpp L1549-1568, entry 7 of `S_6_2_precomputed`. -/
def S_6_2_precomputed_row7 : List (Int × Int) := [
  (123842254916740, 308359974991078), (574238506932073, 548066655568389), (1136716922746292, 561144742242661),
  (1727135332326787, 630035751698247), (2355728497767903, 607471034919373),
  (2968496010578795, 635333276876171), (3595926090502788, 597629922562986),
  (4183733125901552, 596701367897489), (4756578006423278, 515257273243608),
  (5243421993576721, 515257273243608), (5816266874098448, 596701367897489),
  (6404073909497213, 597629922562986), (7031503989421205, 635333276876171),
  (7644271502232098, 607471034919373), (8272864667673213, 630035751698247),
  (8863283077253709, 561144742242661), (9425761493067928, 548066655568389), (9876157745083260, 308359974991078)]

/-- precomputed_ggq_rules_reduced2.cpp L1569-1590, entry 8 of `S_6_2_precomputed`. -/
def S_6_2_precomputed_row8 : List (Int × Int) := [
  (110083252052309, 274100888653530), (510440324673568, 487176835433671), (1010437700588771, 498834981311229),
  (1535337180640659, 560156748845749), (2094357018380856, 540577503849562),
  (2640327184413491, 566708008696970), (3202101138571241, 540034041711162),
  (3742978958417995, 557494701522596), (4286959317868070, 503715080641259),
  (4760280822766443, 471201209334273), (5239719177233556, 471201209334273),
  (5713040682131929, 503715080641259), (6257021041582006, 557494701522596),
  (6797898861428759, 540034041711162), (7359672815586510, 566708008696970),
  (7905642981619145, 540577503849562), (8464662819359341, 560156748845749),
  (8989562299411229, 498834981311229), (9489559675326431, 487176835433671), (9889916747947690, 274100888653530)]

/-- precomputed_ggq_rules_reduced2.cpp L1591-1614, entry 9 of `S_6_2_precomputed`. -/
def S_6_2_precomputed_row9 : List (Int × Int) := [
  (99075209630147, 246691509896562), (459397673911727, 438460619416983), (909399066670567, 448960473199729),
  (1381827441906794, 504169407097952), (1885006735903879, 486656999009454),
  (2376673010433920, 510485341678295), (2883226795690291, 488149298632478),
  (3374532725872590, 508617022455699), (3876670156729576, 478217356080308),
  (4346973332690804, 477379380261923), (4805259310137197, 412212592270617),
  (5194740689862805, 412212592270617), (5653026667309196, 477379380261923),
  (6123329843270423, 478217356080308), (6625467274127409, 508617022455699),
  (7116773204309710, 488149298632478), (7623326989566080, 510485341678295),
  (8114993264096121, 486656999009454), (8618172558093207, 504169407097952),
  (9090600933329434, 448960473199729), (9540602326088273, 438460619416983), (9900924790369854, 246691509896562)]

/-- precomputed_ggq_rules_reduced2.cpp L1615-1640, entry 10 of `S_6_2_precomputed`. -/
def S_6_2_precomputed_row10 : List (Int × Int) := [
  (90068437200758, 224265171743261), (417634565677290, 398600899442149), (826727601416787, 408147945244019),
  (1256212261423299, 458342318701641), (1713662073914778, 442446938406666),
  (2160698663649208, 464180414816996), (2621423769589210, 444264961852894),
  (3069118657861695, 463989135958871), (3528927999779221, 441948482310763),
  (3971515885152901, 456148421766927), (4416599745351742, 412135976353905),
  (4803865730712920, 385529333401908), (5196134269287082, 385529333401908),
  (5583400254648259, 412135976353905), (6028484114847100, 456148421766927),
  (6471072000220780, 441948482310763), (6930881342138304, 463989135958871),
  (7378576230410790, 444264961852894), (7839301336350792, 464180414816996),
  (8286337926085223, 442446938406666), (8743787738576702, 458342318701641),
  (9173272398583213, 408147945244019), (9582365434322709, 398600899442149), (9909931562799243, 224265171743261)]

/-- precomputed_ggq_rules_reduced2.cpp L1641-1668, entry 11 of `S_6_2_precomputed`. -/
def S_6_2_precomputed_row11 : List (Int × Int) := [
  (82562749062877, 205576445003487), (382831758310874, 365384235469556), (757833906400025, 374136092179268),
  (1151529175161406, 420148624748648), (1570861423519105, 405583630632360),
  (1980660493503783, 425522460845486), (2403043149585332, 407357095647705),
  (2813674265133105, 425696927083914), (3235963938817525, 406884859131650),
  (3645432606125088, 423862583746659), (4063888765018603, 398519327312606),
  (4455810546037840, 397816934250160), (4837715959097854, 343510783948499),
  (5162284040902146, 343510783948499), (5544189453962159, 397816934250160),
  (5936111234981397, 398519327312606), (6354567393874913, 423862583746659),
  (6764036061182476, 406884859131650), (7186325734866896, 425696927083914),
  (7596956850414668, 407357095647705), (8019339506496218, 425522460845486),
  (8429138576480895, 405583630632360), (8848470824838593, 420148624748648),
  (9242166093599975, 374136092179268), (9617168241689126, 365384235469556), (9917437250937123, 205576445003487)]

/-- precomputed_ggq_rules_reduced2.cpp L1669-1698, entry 12 of `S_6_2_precomputed`. -/
def S_6_2_precomputed_row12 : List (Int × Int) := [
  (76211771847677, 189762881054567), (353383178530858, 337277773887929), (699539053768136, 345356503485875),
  (1062950303126377, 387829848675171), (1450026981880212, 374386581865439),
  (1828306660663088, 392795490662018), (2218210291569653, 376048539031246),
  (2597311270358528, 393038046942613), (2987304707220009, 376003040244224),
  (3366166870838942, 392620115755373), (3755243989402082, 373960869269960),
  (4129743672734444, 385972455203983), (4506353485598576, 348730679027761),
  (4834040216398395, 326217174893840), (5165959783601605, 326217174893840),
  (5493646514401423, 348730679027761), (5870256327265557, 385972455203983),
  (6244756010597917, 373960869269960), (6633833129161059, 392620115755373),
  (7012695292779990, 376003040244224), (7402688729641471, 393038046942613),
  (7781789708430347, 376048539031246), (8171693339336913, 392795490662018),
  (8549973018119789, 374386581865439), (8937049696873625, 387829848675171),
  (9300460946231864, 345356503485875), (9646616821469142, 337277773887929), (9923788228152324, 189762881054567)]

/-- precomputed_ggq_rules_reduced2.cpp L1699-1730, entry 13 of `S_6_2_precomputed`. -/
def S_6_2_precomputed_row13 : List (Int × Int) := [
  (70768074672855, 176208391595487), (328141526900252, 313186508550379), (649571993289661, 320688207698135),
  (987025350530786, 360127798223496), (1346453872169155, 347645078874753), (1697714419132942, 364739962439980),
  (2059770585436959, 349194152407106), (2411806226566529, 364984261698234),
  (2773986973647828, 349243571205147), (3125996806510112, 364896014373324),
  (3487966515033080, 348762587306658), (3838941734098445, 363311450472142),
  (4197618807733162, 341588209321399), (4533551871710046, 340985978215782),
  (4860899387661670, 294437827617978), (5139100612338330, 294437827617978),
  (5466448128289955, 340985978215782), (5802381192266838, 341588209321399),
  (6161058265901554, 363311450472142), (6512033484966920, 348762587306658),
  (6874003193489888, 364896014373324), (7226013026352173, 349243571205147),
  (7588193773433470, 364984261698234), (7940229414563041, 349194152407106),
  (8302285580867057, 364739962439980), (8653546127830845, 347645078874753),
  (9012974649469213, 360127798223496), (9350428006710340, 320688207698135),
  (9671858473099748, 313186508550379), (9929231925327144, 176208391595487)]

/-- precomputed_ggq_rules_reduced2.cpp L1731-1764, entry 14 of `S_6_2_precomputed`. -/
def S_6_2_precomputed_row14 : List (Int × Int) := [
  (66050203219607, 164461165970277), (306265426043116, 292307408974715), (606267197217306, 299308999943533),
  (921223676744533, 336119297541818), (1256690338608138, 324468833396006), (1584533714661614, 340424269083420),
  (1922453460851296, 325916006694863), (2251023189831897, 340656768938453),
  (2589068910249528, 325983722203450), (2917660708740494, 340645046936703),
  (3255661677336524, 325873161092425), (3584010821890397, 340271387883682),
  (3921211333547689, 324099618942156), (4245777825725773, 334509492998341),
  (4572173014383420, 302233265746428), (4856168186774753, 282721553653731),
  (5143831813225247, 282721553653731), (5427826985616581, 302233265746428),
  (5754222174274227, 334509492998341), (6078788666452311, 324099618942156),
  (6415989178109603, 340271387883682), (6744338322663476, 325873161092425),
  (7082339291259506, 340645046936703), (7410931089750471, 325983722203450),
  (7748976810168103, 340656768938453), (8077546539148703, 325916006694863),
  (8415466285338387, 340424269083420), (8743309661391861, 324468833396006),
  (9078776323255467, 336119297541818), (9393732802782694, 299308999943533),
  (9693734573956885, 292307408974715), (9933949796780394, 164461165970277)]

/-- precomputed_ggq_rules_reduced2.cpp L1765-1800, entry 15 of `S_6_2_precomputed`. -/
def S_6_2_precomputed_row15 : List (Int × Int) := [
  (61922065563618, 154182343210733), (287123837136461, 274038196148574), (568375498212955, 280602188885447),
  (863647200784608, 315111845978775), (1178147206119998, 304189553293821), (1485500418129789, 319147824076668),
  (1802300335460579, 305546602054989), (2110335195561443, 319366852195984),
  (2427255504146180, 305615184590649), (2735321955634830, 319372547628046),
  (3052236350174062, 305591742830081), (3360246768742541, 319284594881803),
  (3676970584722880, 305167450104959), (3984073994841265, 317897549071191),
  (4297916450747554, 298889692811049), (4591857886625704, 298362732495090),
  (4878286963940591, 257633099742141), (5121713036059409, 257633099742141),
  (5408142113374296, 298362732495090), (5702083549252446, 298889692811049),
  (6015926005158736, 317897549071191), (6323029415277119, 305167450104959),
  (6639753231257459, 319284594881803), (6947763649825939, 305591742830081),
  (7264678044365170, 319372547628046), (7572744495853819, 305615184590649),
  (7889664804438556, 319366852195984), (8197699664539421, 305546602054989),
  (8514499581870211, 319147824076668), (8821852793880002, 304189553293821),
  (9136352799215393, 315111845978775), (9431624501787046, 280602188885447),
  (9712876162863538, 274038196148574), (9938077934436382, 154182343210733)]

/-- precomputed_ggq_rules_reduced2.cpp L1801-1838, entry 16 of `S_6_2_precomputed`. -/
def S_6_2_precomputed_row16 : List (Int × Int) := [
  (58279591129439, 145112793637064), (270234199710307, 257918302313191), (534941645571887, 264096178115832),
  (812844425178220, 296575856114510), (1108844432534185, 286296055375506), (1398118054980106, 300374439699702),
  (1696282719900595, 287573354568988), (1986198057742176, 300580835212682),
  (2284476575572185, 287639112864040), (2574424233303282, 300590154910733),
  (2872705742756444, 287636101191701), (3162641390600056, 300569707166932),
  (3460877841544620, 287535317339381), (3750597762860099, 300239488081803),
  (4048127641622234, 285970261036803), (4334509845140220, 295155436443008),
  (4622505600632915, 266676411433397), (4873089576530983, 249460194494725),
  (5126910423469018, 249460194494725), (5377494399367084, 266676411433397),
  (5665490154859780, 295155436443008), (5951872358377766, 285970261036803),
  (6249402237139901, 300239488081803), (6539122158455380, 287535317339381),
  (6837358609399944, 300569707166932), (7127294257243556, 287636101191701),
  (7425575766696717, 300590154910733), (7715523424427815, 287639112864040),
  (8013801942257824, 300580835212682), (8303717280099405, 287573354568988),
  (8601881945019895, 300374439699702), (8891155567465815, 286296055375506),
  (9187155574821780, 296575856114510), (9465058354428113, 264096178115832),
  (9729765800289693, 257918302313191), (9941720408870561, 145112793637064)]

/-- precomputed_ggq_rules_reduced2.cpp L1839-1878, entry 17 of `S_6_2_precomputed`. -/
def S_6_2_precomputed_row17 : List (Int × Int) := [
  (55041836069241, 137050971774743), (255221188627758, 243589507753488), (505222665308711, 249424168301693),
  (767686401773742, 280099419919566), (1047241964831868, 270390720206585), (1320444833125623, 283686974880479),
  (1602044803203269, 271597076608620), (1875853775106291, 283881963774481),
  (2157561402209128, 271659469487307), (2431401513765240, 283891707490376),
  (2713114002211607, 271661157797525), (2986952461074565, 283887226670361),
  (3268654430515553, 271637270189859), (3542441552234041, 283808555412313),
  (3823973847785581, 271259964164147), (4096954661052453, 282575600542063),
  (4375925733722584, 265679727384662), (4637207010282717, 265211317844580),
  (4891810634601815, 229007199797150), (5108189365398185, 229007199797150),
  (5362792989717283, 265211317844580), (5624074266277416, 265679727384662),
  (5903045338947548, 282575600542063), (6176026152214420, 271259964164147),
  (6457558447765959, 283808555412313), (6731345569484447, 271637270189859),
  (7013047538925434, 283887226670361), (7286885997788393, 271661157797525),
  (7568598486234761, 283891707490376), (7842438597790873, 271659469487307),
  (8124146224893709, 283881963774481), (8397955196796730, 271597076608620),
  (8679555166874376, 283686974880479), (8952758035168132, 270390720206585),
  (9232313598226258, 280099419919566), (9494777334691289, 249424168301693),
  (9744778811372243, 243589507753488), (9944958163930759, 137050971774743)]

/-- precomputed_ggq_rules_reduced2.cpp L1879-1920, entry 18 of `S_6_2_precomputed`. -/
def S_6_2_precomputed_row18 : List (Int × Int) := [
  (52144897329365, 129837762735502), (241788494492437, 230769007348572), (478631998724596, 236296580515731),
  (727281854363687, 265357345248066), (992123966867161, 256159629965757), (1250947737462686, 268756082433735),
  (1517726658576780, 257302498290367), (1777124641922875, 268940823036688),
  (2044005584779757, 257361676077381), (2303433215812473, 268950278862034),
  (2570319250436123, 257364358185138), (2829747630282311, 268949576397816),
  (3096631356496138, 257358773596487), (3356047541081647, 268930815852483),
  (3622890695309995, 257268449894382), (3882113786848165, 268635332738942),
  (4148324731718838, 255868128711688), (4404561440338518, 264086443199708),
  (4662241853184356, 238605210252005), (4886448568473479, 223201226657519),
  (5113551431526521, 223201226657519), (5337758146815645, 238605210252005),
  (5595438559661483, 264086443199708), (5851675268281162, 255868128711688),
  (6117886213151834, 268635332738942), (6377109304690005, 257268449894382),
  (6643952458918354, 268930815852483), (6903368643503862, 257358773596487),
  (7170252369717690, 268949576397816), (7429680749563876, 257364358185138),
  (7696566784187527, 268950278862034), (7955994415220243, 257361676077381),
  (8222875358077125, 268940823036688), (8482273341423220, 257302498290367),
  (8749052262537315, 268756082433735), (9007876033132840, 256159629965757),
  (9272718145636314, 265357345248066), (9521368001275405, 236296580515731),
  (9758211505507562, 230769007348572), (9947855102670635, 129837762735502)]

/-- precomputed_ggq_rules_reduced2.cpp L1921-1964, entry 19 of `S_6_2_precomputed`. -/
def S_6_2_precomputed_row19 : List (Int × Int) := [
  (49537652463044, 123345874599093), (229699069768529, 219230556981903), (454700398791016, 224481751494583),
  (690917761657875, 252089478000282), (942517768567906, 243351648538374), (1188400350785110, 255318278543656),
  (1441840326344314, 244437374491076), (1688268412907158, 255493785533648),
  (1941805316509594, 244493609836443), (2188261603537022, 255502822386091),
  (2441803460667296, 244496416879066), (2688261012849413, 255503002645877),
  (2941802509319708, 244495190920711), (3188257196984859, 255498527971884),
  (3441788982696297, 244473550831426), (3688197396085477, 255427701104000),
  (3941576462761562, 244133968141998), (4187259194899581, 254318040551181),
  (4438333160337583, 239111754666637), (4673486309252074, 238690186063417),
  (4902629571141078, 206106479818654), (5097370428858922, 206106479818654),
  (5326513690747926, 238690186063417), (5561666839662417, 239111754666637),
  (5812740805100418, 254318040551181), (6058423537238439, 244133968141998),
  (6311802603914523, 255427701104000), (6558211017303703, 244473550831426),
  (6811742803015142, 255498527971884), (7058197490680291, 244495190920711),
  (7311738987150588, 255503002645877), (7558196539332704, 244496416879066),
  (7811738396462978, 255502822386091), (8058194683490406, 244493609836443),
  (8311731587092842, 255493785533648), (8558159673655688, 244437374491076),
  (8811599649214891, 255318278543656), (9057482231432095, 243351648538374),
  (9309082238342125, 252089478000282), (9545299601208984, 224481751494583),
  (9770300930231471, 219230556981903), (9950462347536956, 123345874599093)]

/-- precomputed_ggq_rules_reduced2.cpp L1965-2010, entry 20 of `S_6_2_precomputed`. -/
def S_6_2_precomputed_row20 : List (Int × Int) := [
  (47178716631508, 117472261523039), (218761018827344, 208791006649607), (433047998849222, 213792144281668),
  (658016915867613, 240085217146636), (897635970075263, 231763474815479), (1131809857937537, 243160265335282),
  (1373181263352263, 232797499783082), (1607874679698824, 243327415670042),
  (1849338399309471, 232851061204034), (2084058681683986, 243336035118227),
  (2325527146876319, 232853796775008), (2560248767126304, 243336410308240),
  (2801717328803626, 232853608741547), (3036438315034289, 243335353853938),
  (3277904556098870, 232848421501958), (3512614441049952, 243318358374185),
  (3754043962189695, 232766693136947), (3988579140436333, 243051015395617),
  (4229436662019275, 231499735520400), (4461269874589661, 238935353374257),
  (4694409295737597, 215880904514752), (4897262990523550, 201943966976052),
  (5102737009476450, 201943966976052), (5305590704262402, 215880904514751),
  (5538730125410338, 238935353374257), (5770563337980724, 231499735520400),
  (6011420859563666, 243051015395617), (6245956037810305, 232766693136948),
  (6487385558950048, 243318358374185), (6722095443901129, 232848421501959),
  (6963561684965710, 243335353853937), (7198282671196372, 232853608741547),
  (7439751232873695, 243336410308241), (7674472853123679, 232853796775008),
  (7915941318316013, 243336035118228), (8150661600690529, 232851061204035),
  (8392125320301176, 243327415670041), (8626818736647736, 232797499783083),
  (8868190142062462, 243160265335281), (9102364029924735, 231763474815479),
  (9341983084132386, 240085217146636), (9566952001150777, 213792144281668),
  (9781238981172655, 208791006649608), (9952821283368493, 117472261523039)]

/-- precomputed_ggq_rules_reduced2.cpp L2011-2058, entry 21 of `S_6_2_precomputed`. -/
def S_6_2_precomputed_row21 : List (Int × Int) := [
  (45034229511903, 112132613272014), (208817336153415, 199300506347396), (413363998901683, 204074319541860),
  (628107056056163, 229172252731724), (856834335074387, 221228771418869), (1080363955315301, 232107526015229),
  (1310763933240084, 222215795311861), (1534789467163050, 232267078804748),
  (1765277563610369, 222266923072170), (1989328744407849, 232275309566354),
  (2219821377444574, 222269549251482), (2443873867270738, 232275716628052),
  (2674366698178950, 222269605256146), (2898419086242943, 232275478740566),
  (3128911367774761, 222268362346423), (3352961087327053, 232271390186321),
  (3583444529500929, 222248682932295), (3807452178216257, 232207001061297),
  (4037796784317213, 221939971056619), (4261144722633755, 231198218685852),
  (4489393782124479, 217374322425172), (4703169372047227, 216991078239622),
  (4911481428310042, 187369527107928), (5088518571689958, 187369527107928),
  (5296830627952773, 216991078239623), (5510606217875522, 217374322425172),
  (5738855277366246, 231198218685852), (5962203215682788, 221939971056619),
  (6192547821783744, 232207001061297), (6416555470499072, 222248682932295),
  (6647038912672948, 232271390186321), (6871088632225240, 222268362346423),
  (7101580913757057, 232275478740567), (7325633301821051, 222269605256145),
  (7556126132729263, 232275716628053), (7780178622555427, 222269549251481),
  (8010671255592151, 232275309566354), (8234722436389632, 222266923072169),
  (8465210532836950, 232267078804748), (8689236066759917, 222215795311861),
  (8919636044684699, 232107526015229), (9143165664925613, 221228771418868),
  (9371892943943837, 229172252731725), (9586636001098318, 204074319541859),
  (9791182663846585, 199300506347396), (9954965770488097, 112132613272013)]

/-- precomputed_ggq_rules_reduced2.cpp L2059-2108, entry 22 of `S_6_2_precomputed`. -/
def S_6_2_precomputed_row22 : List (Int × Int) := [
  (43076219533126, 107257282260192), (199738321538059, 190635266940998), (395391651123386, 195201523040105),
  (600798053619111, 219208241743592), (819580668332637, 211610129184253), (1033391609434749, 222015894452573),
  (1253774197021947, 212554239009478), (1468059490372752, 222168510211853),
  (1688526365345209, 212603144052632), (1902836190978475, 222176383863393),
  (2123307406916869, 212605659656006), (2337618492373025, 222176785025147),
  (2558089923086694, 212605770014296), (2772401032609085, 222176743297747),
  (2992872339544652, 212605475512146), (3207182808574701, 222175758938879),
  (3427651985790041, 212600733018388), (3641952315699875, 222160240309851),
  (3862387965466573, 212526111142670), (4076528780396261, 221916144494487),
  (4296442169669207, 211369323736927), (4508115972451320, 218158366124466),
  (4720982400456037, 197108651948300), (4906196643521499, 184383622021622),
  (5093803356478502, 184383622021623), (5279017599543963, 197108651948300),
  (5491884027548680, 218158366124466), (5703557830330793, 211369323736926),
  (5923471219603739, 221916144494487), (6137612034533427, 212526111142671),
  (6358047684300125, 222160240309850), (6572348014209959, 212600733018389),
  (6792817191425300, 222175758938878), (7007127660455349, 212605475512146),
  (7227598967390916, 222176743297747), (7441910076913305, 212605770014297),
  (7662381507626975, 222176785025147), (7876692593083131, 212605659656005),
  (8097163809021525, 222176383863393), (8311473634654791, 212603144052633),
  (8531940509627248, 222168510211853), (8746225802978053, 212554239009478),
  (8966608390565250, 222015894452573), (9180419331667363, 211610129184252),
  (9399201946380888, 219208241743592), (9604608348876614, 195201523040105),
  (9800261678461941, 190635266940996), (9956923780466873, 107257282260193)]

/-- precomputed_ggq_rules_reduced2.cpp L2109-2160, entry 23 of `S_6_2_precomputed`. -/
def S_6_2_precomputed_row23 : List (Int × Int) := [
  (41281377052580, 102788228832685), (191415891473976, 182692130818459), (378916998993254, 187068126246783),
  (575764801385023, 210074565004324), (785431473818925, 202793040468481), (990333625708958, 212765232184494),
  (1201533605481706, 203697812387829), (1406890344950903, 212911488965284),
  (1618171100159343, 203744679776111), (1823551349850698, 212919034728820),
  (2034836265542387, 203747091432961), (2240217724424524, 212919422023144),
  (2451502852098831, 203747210899424), (2656884363346367, 212919426883015),
  (2868169469357824, 203747144535084), (3073550828285116, 212919189873084),
  (3284835420255811, 203745999145962), (3490214330010138, 212915441056990),
  (3701490818698669, 203727959371500), (3906831163362861, 212856417642241),
  (4117980385623570, 203444973469437), (4322715995747503, 211931700462170),
  (4531944300280744, 199259795556453), (4727905257709952, 198908488386328),
  (4918857975950870, 171755399848936), (5081142024049130, 171755399848937),
  (5272094742290048, 198908488386328), (5468055699719256, 199259795556453),
  (5677284004252496, 211931700462171), (5882019614376429, 203444973469437),
  (6093168836637138, 212856417642241), (6298509181301331, 203727959371499),
  (6509785669989862, 212915441056991), (6715164579744188, 203745999145962),
  (6926449171714884, 212919189873084), (7131830530642175, 203747144535084),
  (7343115636653633, 212919426883014), (7548497147901169, 203747210899424),
  (7759782275575475, 212919422023145), (7965163734457613, 203747091432960),
  (8176448650149302, 212919034728820), (8381828899840656, 203744679776111),
  (8593109655049097, 212911488965284), (8798466394518294, 203697812387829),
  (9009666374291041, 212765232184495), (9214568526181075, 202793040468480),
  (9424235198614976, 210074565004325), (9621083001006746, 187068126246783),
  (9808584108526024, 182692130818458), (9958718622947420, 102788228832686)]

/-- precomputed_ggq_rules_reduced2.cpp L2161-2214, entry 24 of `S_6_2_precomputed`. -/
def S_6_2_precomputed_row24 : List (Int × Int) := [
  (39630121970477, 98676699679378), (183759255815017, 175384445585721), (363760319033526, 179585401196915),
  (552734209329632, 201671582404163), (754014214866204, 194681318849799), (950720280680759, 204254622897303),
  (1153472261263004, 195549899893223), (1350614731155372, 204395029409640),
  (1553444256161888, 195594892599347), (1750609295896119, 204402273386395),
  (1953442815061160, 195597208000554), (2150609016068833, 204402645878149),
  (2353442740227174, 195597326005668), (2550608998597447, 204402661398144),
  (2753442725425795, 195597314541424), (2950608949260281, 204402604820390),
  (3153442552184869, 195597037786445), (3350608183850651, 204401698274517),
  (3553439826916744, 195592674393137), (3750596130441927, 204387421087674),
  (3953396928228728, 195524022252091), (4150406477964460, 204162852935062),
  (4352726796095644, 194459777838015), (4547466694655209, 200705696834516),
  (4743303808419553, 181339959792439), (4913700912039778, 169632932259892),
  (5086299087960222, 169632932259893), (5256696191580448, 181339959792439),
  (5452533305344792, 200705696834516), (5647273203904357, 194459777838015),
  (5849593522035540, 204162852935062), (6046603071771272, 195524022252091),
  (6249403869558074, 204387421087673), (6446560173083257, 195592674393137),
  (6649391816149349, 204401698274517), (6846557447815131, 195597037786444),
  (7049391050739719, 204402604820391), (7246557274574205, 195597314541425),
  (7449391001402553, 204402661398143), (7646557259772827, 195597326005668),
  (7849390983931168, 204402645878148), (8046557184938841, 195597208000554),
  (8249390704103882, 204402273386395), (8446555743838112, 195594892599347),
  (8649385268844628, 204395029409640), (8846527738736997, 195549899893223),
  (9049279719319242, 204254622897302), (9245985785133797, 194681318849799),
  (9447265790670368, 201671582404164), (9636239680966474, 179585401196915),
  (9816240744184983, 175384445585720), (9960369878029522, 98676699679379)]

/-- precomputed_ggq_rules_reduced2.cpp L2215-2270, entry 25 of `S_6_2_precomputed`. -/
def S_6_2_precomputed_row25 : List (Int × Int) := [
  (38105886510074, 94881441999402), (176691592129824, 168638889986270), (349769537532237, 172678270381650),
  (531475201278495, 193914983080929), (725013668140590, 187193575817128), (914154116039230, 196398675862837),
  (1109107943522256, 188028749897549), (1298668010726926, 196533682125372),
  (1493696400157822, 188072012118215), (1683278169140436, 196540647498234),
  (1878310399131286, 188074238516537), (2067893284832025, 196541005830283),
  (2262925712292641, 188074352786331), (2452508654867122, 196541023381949),
  (2647541090577803, 188074354415114), (2837124026992726, 196541010378997),
  (3032156433064713, 188074287566299), (3221739226072729, 196540790700874),
  (3416771157149505, 188073229996483), (3606351689238244, 196537330208963),
  (3801376140336734, 188056577882187), (3990921073873314, 196482847054505),
  (4185828048267886, 187795360125676), (4374814765305383, 195629261965087),
  (4567948584874532, 183932118975190), (4748835622501495, 183607835433533),
  (4925099670108496, 158543446014403), (5074900329891504, 158543446014403),
  (5251164377498505, 183607835433534), (5432051415125470, 183932118975189),
  (5625185234694619, 195629261965088), (5814171951732116, 187795360125676),
  (6009078926126686, 196482847054505), (6198623859663267, 188056577882186),
  (6393648310761756, 196537330208963), (6583228842850495, 188073229996484),
  (6778260773927270, 196540790700874), (6967843566935287, 188074287566299),
  (7162875973007274, 196541010378997), (7352458909422198, 188074354415114),
  (7547491345132878, 196541023381949), (7737074287707361, 188074352786332),
  (7932106715167975, 196541005830283), (8121689600868714, 188074238516537),
  (8316721830859564, 196540647498234), (8506303599842179, 188072012118215),
  (8701331989273074, 196533682125373), (8890892056477745, 188028749897550),
  (9085845883960770, 196398675862836), (9274986331859411, 187193575817128),
  (9468524798721506, 193914983080929), (9650230462467764, 172678270381651),
  (9823308407870176, 168638889986270), (9961894113489926, 94881441999402)]

/-- precomputed_ggq_rules_reduced2.cpp L2271-2328, entry 26 of `S_6_2_precomputed`. -/
def S_6_2_precomputed_row26 : List (Int × Int) := [
  (36694557380071, 91367314517943), (170147459087979, 162393005171964), (336815110216228, 166282778886034),
  (511790934564477, 186732946670525), (698161310061310, 180260480416497), (880296556185935, 189124650830891),
  (1068029871539984, 181064722123619), (1250569195514965, 189254656861644),
  (1438374311263612, 181106382040602), (1620934533248665, 189261364260306),
  (1808743347319867, 181108525992110), (1991304644689588, 189261709361317),
  (2179113649004458, 181108636224718), (2361675001558423, 189261726901072),
  (2549484015197417, 181108640864758), (2732045368386453, 189261724430191),
  (2919854375212578, 181108624867310), (3102415693724265, 189261671176981),
  (3290224585347014, 181108368335800), (3472785355415456, 189260831738081),
  (3660592432329837, 181104328142566), (3843144565223912, 189247612118340),
  (4030923081693242, 181040761344569), (4213339331448568, 189039678643582),
  (4400672959347817, 180055349850016), (4580987680236304, 185838608180108),
  (4762318341129215, 167907370178184), (4920093437073869, 157067529870272),
  (5079906562926131, 157067529870271), (5237681658870784, 167907370178184),
  (5419012319763696, 185838608180107), (5599327040652183, 180055349850016),
  (5786660668551431, 189039678643582), (5969076918306757, 181040761344569),
  (6156855434776086, 189247612118340), (6339407567670161, 181104328142566),
  (6527214644584544, 189260831738081), (6709775414652985, 181108368335800),
  (6897584306275735, 189261671176980), (7080145624787422, 181108624867310),
  (7267954631613547, 189261724430191), (7450515984802583, 181108640864759),
  (7638324998441577, 189261726901071), (7820886350995541, 181108636224719),
  (8008695355310412, 189261709361316), (8191256652680132, 181108525992111),
  (8379065466751334, 189261364260305), (8561625688736388, 181106382040602),
  (8749430804485034, 189254656861644), (8931970128460015, 181064722123620),
  (9119703443814065, 189124650830891), (9301838689938688, 180260480416498),
  (9488209065435522, 186732946670524), (9663184889783771, 166282778886035),
  (9829852540912021, 162393005171963), (9963305442619930, 91367314517943)]

/-- precomputed_ggq_rules_reduced2.cpp L2329-2388, entry 27 of `S_6_2_precomputed`. -/
def S_6_2_precomputed_row27 : List (Int × Int) := [
  (35384037473640, 88104196142302), (164070764120551, 156593254987251), (324785999137077, 160344108211533),
  (493512686901460, 180063912860864), (673226977559121, 173822606115909), (848857393465011, 182370199015505),
  (1029885947556421, 174598124904932), (1205906009960895, 182495561973770),
  (1387003800147182, 174638296967928), (1563044014204633, 182502029823104),
  (1744145370631877, 174640364352746), (1920186621673830, 182502362608920),
  (2101288161571600, 174640470695840), (2277329465928188, 182502379677235),
  (2458431015152127, 174640475916121), (2634472321715829, 182502379735438),
  (2815573869647057, 174640472238383), (2991615167887822, 182502366825809),
  (3172716687836792, 174640409897473), (3348757852780070, 182502162796000),
  (3529858931638362, 174639427854622), (3705897997149707, 182498949479871),
  (3886992130312657, 174623965176355), (4062998140025215, 182448357979190),
  (4243983187677321, 174381405830986), (4419470853497854, 181655743253296),
  (4598809400240636, 170794110476962), (4766775935179959, 170492990045424),
  (4930449693672175, 147218914156232), (5069550306327826, 147218914156231),
  (5233224064820040, 170492990045425), (5401190599759363, 170794110476961),
  (5580529146502144, 181655743253296), (5756016812322678, 174381405830986),
  (5937001859974784, 182448357979190), (6113007869687342, 174623965176354),
  (6294102002850290, 182498949479872), (6470141068361638, 174639427854622),
  (6651242147219928, 182502162796001), (6827283312163207, 174640409897472),
  (7008384832112176, 182502366825809), (7184426130352942, 174640472238383),
  (7365527678284169, 182502379735438), (7541568984847873, 174640475916121),
  (7722670534071812, 182502379677236), (7898711838428401, 174640470695839),
  (8079813378326169, 182502362608921), (8255854629368122, 174640364352745),
  (8436955985795366, 182502029823105), (8612996199852818, 174638296967927),
  (8794093990039105, 182495561973771), (8970114052443579, 174598124904931),
  (9151142606534989, 182370199015505), (9326773022440878, 173822606115908),
  (9506487313098538, 180063912860864), (9675214000862922, 160344108211532),
  (9835929235879448, 156593254987251), (9964615962526360, 88104196142302)]

/-- precomputed_ggq_rules_reduced2.cpp L2389-2450, entry 28 of `S_6_2_precomputed`. -/
def S_6_2_precomputed_row28 : List (Int × Int) := [
  (34163898250411, 85066120413257), (158413151564670, 151193487573897), (313586481925454, 154815001031825),
  (476495008042789, 173854812417386), (650012254195014, 167828723146395), (819586448862769, 176081571463246),
  (994372639019995, 168577499908213), (1164323044100183, 176202611560892), (1339176082900758, 168616286727704),
  (1509145944749438, 176208856381091), (1684002426817473, 168618282824123),
  (1853973289894133, 176209177693929), (2028829949111302, 168618385511743),
  (2198800863688809, 176209194211406), (2373657531992113, 168618390733593),
  (2543628449088809, 176209194861742), (2718485117428448, 168618390042422),
  (2888456032602841, 176209191754617), (3063312694154733, 168618374890443),
  (3233283576914007, 176209142132543), (3408140131184703, 168618136037498),
  (3578110503317751, 176208360583847), (3752965368031205, 168614374477598),
  (3922927698656742, 176196052661909), (4097755972610948, 168555191596669),
  (4267591791348668, 176002459426784), (4442005858703140, 167637739515532),
  (4609885081599318, 173022152443548), (4778710179672028, 156327551545206),
  (4925604234517050, 146235286430942), (5074395765482950, 146235286430942),
  (5221289820327972, 156327551545205), (5390114918400681, 173022152443549),
  (5557994141296860, 167637739515532), (5732408208651332, 176002459426785),
  (5902244027389052, 168555191596669), (6077072301343258, 176196052661909),
  (6247034631968795, 168614374477597), (6421889496682248, 176208360583847),
  (6591859868815296, 168618136037499), (6766716423085993, 176209142132543),
  (6936687305845267, 168618374890442), (7111543967397159, 176209191754617),
  (7281514882571551, 168618390042421), (7456371550911189, 176209194861742),
  (7626342468007887, 168618390733593), (7801199136311191, 176209194211406),
  (7971170050888697, 168618385511742), (8146026710105867, 176209177693930),
  (8315997573182526, 168618282824122), (8490854055250561, 176208856381091),
  (8660823917099242, 168616286727704), (8835676955899817, 176202611560892),
  (9005627360980005, 168577499908212), (9180413551137230, 176081571463247),
  (9349987745804986, 167828723146394), (9523504991957210, 173854812417386),
  (9686413518074546, 154815001031825), (9841586848435330, 151193487573897), (9965836101749589, 85066120413257)]

/-- precomputed_ggq_rules_reduced2.cpp L2451-2514, entry 29 of `S_6_2_precomputed`. -/
def S_6_2_precomputed_row29 : List (Int × Int) := [
  (33025101642064, 82230583066148), (153132713179181, 146153704654768), (303133599194605, 149654500997430),
  (460611841108029, 168059652003473), (628345179055180, 162234432374849), (792266900567344, 170212185747805),
  (961226884385995, 162958249911273), (1125512275963512, 170329191175532), (1294536880137407, 162995743836792),
  (1458841079924491, 170335227835094), (1627869012590343, 162997673396842),
  (1792174180231521, 170335538438087), (1961202284142798, 162997772664348),
  (2125507501574128, 170335554414166), (2294535614288524, 162997777756344),
  (2458840834249577, 170335555187472), (2627868947311810, 162997777784439),
  (2792174166903046, 170335554462033), (2961202278328842, 162997774102673),
  (3125507490027002, 170335542372931), (3294535575313906, 162997715905004),
  (3458840662594649, 170335351943046), (3627868336195782, 162996799331016),
  (3792171464006390, 170332352847886), (3961192654958479, 162982367497933),
  (4125464930690201, 170285134113911), (4294384308498833, 162755978775587),
  (4458172796597998, 169545360369743), (4625555440224594, 159407836445164),
  (4782324206167962, 159126790709063), (4935086380760697, 137404319879149),
  (5064913619239303, 137404319879149), (5217675793832037, 159126790709063),
  (5374444559775405, 159407836445164), (5541827203402002, 169545360369743),
  (5705615691501167, 162755978775587), (5874535069309799, 170285134113911),
  (6038807345041520, 162982367497932), (6207828535993609, 170332352847886),
  (6372131663804217, 162996799331016), (6541159337405350, 170335351943046),
  (6705464424686093, 162997715905004), (6874492509972997, 170335542372931),
  (7038797721671157, 162997774102673), (7207825833096952, 170335554462033),
  (7372131052688189, 162997777784439), (7541159165750422, 170335555187472),
  (7705464385711476, 162997777756344), (7874492498425872, 170335554414165),
  (8038797715857202, 162997772664348), (8207825819768478, 170335538438088),
  (8372130987409657, 162997673396842), (8541158920075510, 170335227835094),
  (8705463119862593, 162995743836792), (8874487724036487, 170329191175532),
  (9038773115614005, 162958249911273), (9207733099432656, 170212185747805),
  (9371654820944820, 162234432374848), (9539388158891970, 168059652003473),
  (9696866400805394, 149654500997430), (9846867286820818, 146153704654768), (9966974898357936, 82230583066148)]

/-- precomputed_ggq_rules_reduced2.cpp L2515-2580, entry 30 of `S_6_2_precomputed`. -/
def S_6_2_precomputed_row30 : List (Int × Int) := [
  (31959775782643, 79577983612402), (148192948237917, 141439069020743), (293355095994779, 144826936449126),
  (445753394620674, 162638372906587), (608075979730819, 157001063588563), (766709903774849, 164721470078521),
  (930219565534834, 157701532172200), (1089205428351787, 164834701137612), (1252777625939428, 157737816616254),
  (1411781690249515, 164840543066230), (1575357108958425, 157739683932474),
  (1734362109901600, 164840843649914), (1897937694332196, 157739779998488),
  (2056942743460854, 164840859112876), (2220518336415441, 157739784937010),
  (2379523388015275, 164840859896527), (2543098981382775, 157739785134063),
  (2702104032987859, 164840859750298), (2865679625973311, 157739784246313),
  (3024684675659142, 164840856804811), (3188260262273364, 157739770059475),
  (3347265281629151, 164840810382165), (3510840767882443, 157739546615759),
  (3669845309555312, 164840079255862), (3833419215254997, 157736027737110),
  (3992416234227274, 164828565393399), (4155965264700564, 157680663106562),
  (4314843933842301, 164647462044411), (4478005480722292, 156822401482272),
  (4635053786012265, 161859432931061), (4792986942273833, 146241903058418),
  (4930403961322402, 136800751822495), (5069596038677597, 136800751822494),
  (5207013057726166, 146241903058418), (5364946213987734, 161859432931062),
  (5521994519277708, 156822401482272), (5685156066157697, 164647462044411),
  (5844034735299435, 157680663106561), (6007583765772725, 164828565393399),
  (6166580784745003, 157736027737109), (6330154690444687, 164840079255863),
  (6489159232117557, 157739546615758), (6652734718370847, 164840810382165),
  (6811739737726635, 157739770059474), (6975315324340857, 164840856804811),
  (7134320374026689, 157739784246313), (7297895967012140, 164840859750298),
  (7456901018617225, 157739785134062), (7620476611984724, 164840859896528),
  (7779481663584558, 157739784937010), (7943057256539146, 164840859112876),
  (8102062305667803, 157739779998487), (8265637890098398, 164840843649914),
  (8424642891041574, 157739683932474), (8588218309750484, 164840543066230),
  (8747222374060571, 157737816616253), (8910794571648213, 164834701137612),
  (9069780434465166, 157701532172200), (9233290096225150, 164721470078522),
  (9391924020269180, 157001063588563), (9554246605379326, 162638372906586),
  (9706644904005221, 144826936449126), (9851807051762083, 141439069020744), (9968040224217358, 79577983612401)]

/-- precomputed_ggq_rules_reduced2.cpp L2581-2648, entry 31 of `S_6_2_precomputed`. -/
def S_6_2_precomputed_row31 : List (Int × Int) := [
  (30961032789435, 77091171624514), (143561918605482, 137019098113845), (284187749244943, 140301094685091),
  (431823601038778, 157555923753256), (589073605364231, 152094780351421), (742750219281885, 159573924138567),
  (901150204111871, 152773359291819), (1055167758715793, 159683616727062), (1213628325128821, 152808509846997),
  (1367663512429220, 159689276095412), (1526127199303482, 152810318809596),
  (1680163293967207, 159689567285891), (1838627141384427, 152810411873713),
  (1992663282728195, 159689582266182), (2151127138404214, 152810416660539),
  (2305163282147559, 159689583033955), (2463627138242201, 152810416892877),
  (2617663282079233, 159689583027902), (2776127138096936, 152810416685583),
  (2930163281470076, 159689582310195), (3088627135932884, 152810413221908),
  (3242663271900236, 159689570974727), (3401127101856766, 152810358660975),
  (3555163121182479, 159689392446611), (3713626565183545, 152809499372830),
  (3867660747505990, 159686580794893), (4026118114023574, 152795969529312),
  (4180123372522063, 159642313231791), (4338485289217656, 152583730102113),
  (4492036996810623, 158948775346634), (4648958225210557, 149444846667342),
  (4795928943282464, 149181366289746), (4939143481963153, 128816549886702),
  (5060856518036847, 128816549886702), (5204071056717535, 149181366289746),
  (5351041774789443, 149444846667342), (5507963003189378, 158948775346634),
  (5661514710782344, 152583730102113), (5819876627477937, 159642313231791),
  (5973881885976425, 152795969529312), (6132339252494009, 159686580794893),
  (6286373434816455, 152809499372830), (6444836878817520, 159689392446611),
  (6598872898143233, 152810358660975), (6757336728099764, 159689570974727),
  (6911372864067117, 152810413221908), (7069836718529924, 159689582310195),
  (7223872861903065, 152810416685583), (7382336717920767, 159689583027902),
  (7536372861757799, 152810416892877), (7694836717852440, 159689583033955),
  (7848872861595786, 152810416660539), (8007336717271806, 159689582266182),
  (8161372858615573, 152810411873713), (8319836706032794, 159689567285891),
  (8473872800696518, 152810318809596), (8632336487570780, 159689276095412),
  (8786371674871178, 152808509846996), (8944832241284206, 159683616727062),
  (9098849795888129, 152773359291819), (9257249780718115, 159573924138567),
  (9410926394635769, 152094780351421), (9568176398961222, 157555923753256),
  (9715812250755057, 140301094685091), (9856438081394517, 137019098113844), (9969038967210565, 77091171624514)]

/-- precomputed_ggq_rules_reduced2.cpp L2649-2718, entry 32 of `S_6_2_precomputed`. -/
def S_6_2_precomputed_row32 : List (Int × Int) := [
  (30022819674604, 74755075514680), (139211557435619, 132867004231607), (275575999267823, 136049546361300),
  (418738037370936, 152781501821339), (571222890050164, 147485847613499), (720242636879404, 154738350679823),
  (873842622169087, 148143863555703), (1023192978148648, 154844719250484), (1176851709215827, 148177948942542),
  (1326219163567729, 154850207122825), (1479880920536711, 148179703088096),
  (1629249254756087, 154850489489358), (1782911167403108, 148179793332129),
  (1932279546888067, 154850504015834), (2085941467543909, 148179797974543),
  (2235309849357107, 154850504762446), (2388971770423437, 148179798209972),
  (2538340152349142, 154850504789730), (2692002073412535, 148179798168528),
  (2841370455229535, 154850504615894), (2995032375913929, 148179797322926),
  (3144400755922149, 154850501847046), (3298062670620413, 148179783995296),
  (3447431022136472, 154850458237797), (3601092842556233, 148179574093593),
  (3750460745339839, 154849771422174), (3904121080997118, 148176268480315),
  (4053481917001379, 154838955369557), (4207118885021742, 148124259281921),
  (4356368543912466, 154668827981113), (4509641512193669, 147318013513650),
  (4657171738375159, 152049770329179), (4805533188196631, 137378757418514),
  (4934621903060438, 128509797166586), (5065378096939561, 128509797166585),
  (5194466811803369, 137378757418514), (5342828261624841, 152049770329179),
  (5490358487806332, 147318013513650), (5643631456087534, 154668827981113),
  (5792881114978258, 148124259281921), (5946518082998621, 154838955369557),
  (6095878919002882, 148176268480315), (6249539254660161, 154849771422174),
  (6398907157443767, 148179574093593), (6552568977863529, 154850458237796),
  (6701937329379588, 148179783995296), (6855599244077851, 154850501847046),
  (7004967624086071, 148179797322926), (7158629544770464, 154850504615894),
  (7307997926587464, 148179798168528), (7461659847650858, 154850504789729),
  (7611028229576562, 148179798209972), (7764690150642892, 154850504762446),
  (7914058532456091, 148179797974543), (8067720453111933, 154850504015834),
  (8217088832596893, 148179793332129), (8370750745243913, 154850489489358),
  (8520119079463289, 148179703088096), (8673780836432271, 154850207122825),
  (8823148290784173, 148177948942542), (8976807021851352, 154844719250484),
  (9126157377830914, 148143863555703), (9279757363120597, 154738350679823),
  (9428777109949836, 147485847613499), (9581261962629064, 152781501821339),
  (9724424000732177, 136049546361300), (9860788442564381, 132867004231608), (9969977180325397, 74755075514680)]

/-- precomputed_ggq_rules_reduced2.cpp L2719-2790, entry 33 of `S_6_2_precomputed`. -/
def S_6_2_precomputed_row33 : List (Int × Int) := [
  (29139795566527, 72556396823072), (135117099863983, 128959151165971), (267470822818770, 132048089115380),
  (406422212742379, 148287928238358), (554422216813394, 143148028566043), (699059029912362, 150187222718652),
  (848141368575878, 143786691098183), (993099067026629, 150290462801940), (1142238423650655, 143819773973644),
  (1287212717580443, 150295789266271), (1436355011109161, 143821476526682),
  (1581330159027969, 150296063327909), (1730472603655964, 143821564116489),
  (1875447795509035, 150296077427168), (2024590247910369, 143821568622518),
  (2169565442023538, 150296078152335), (2318707894824399, 143821568853500),
  (2463683089052061, 150296078186920), (2612825541867591, 143821568852281),
  (2757800736073133, 150296078145828), (2906943188796735, 143821568645868),
  (3051918382559997, 150296077468518), (3201060833819165, 143821565385357),
  (3346036020611983, 150296066799749), (3495178448806367, 143821514033860),
  (3640153525818804, 150295898773281), (3789295590760983, 143820705292075),
  (3934268938829167, 150293252512841), (4083405283786893, 143807971321705),
  (4228351409432530, 150251588924039), (4377397919263676, 143608216566695),
  (4521917173468821, 149598847385067), (4669607741374642, 140653973333969),
  (4807933123089378, 140405991802114), (4942723277141791, 121239105775720),
  (5057276722858208, 121239105775720), (5192066876910622, 140405991802114),
  (5330392258625358, 140653973333969), (5478082826531179, 149598847385067),
  (5622602080736324, 143608216566695), (5771648590567470, 150251588924039),
  (5916594716213106, 143807971321706), (6065731061170833, 150293252512840),
  (6210704409239016, 143820705292075), (6359846474181197, 150295898773281),
  (6504821551193632, 143821514033860), (6653963979388017, 150296066799748),
  (6798939166180835, 143821565385357), (6948081617440002, 150296077468518),
  (7093056811203264, 143821568645868), (7242199263926866, 150296078145827),
  (7387174458132408, 143821568852281), (7536316910947939, 150296078186919),
  (7681292105175600, 143821568853500), (7830434557976461, 150296078152335),
  (7975409752089629, 143821568622518), (8124552204490963, 150296077427168),
  (8269527396344035, 143821564116489), (8418669840972031, 150296063327908),
  (8563644988890838, 143821476526682), (8712787282419557, 150295789266271),
  (8857761576349344, 143819773973644), (9006900932973371, 150290462801940),
  (9151858631424121, 143786691098183), (9300940970087638, 150187222718651),
  (9445577783186605, 143148028566043), (9593577787257621, 148287928238358),
  (9732529177181231, 132048089115380), (9864882900136017, 128959151165971), (9970860204433474, 72556396823072)]

/-- precomputed_ggq_rules_reduced2.cpp L2791-2864, entry 34 of `S_6_2_precomputed`. -/
def S_6_2_precomputed_row34 : List (Int × Int) := [
  (28307229978912, 70483356913842), (131256611296441, 125274603989801), (259828799309662, 128275286569226),
  (394810149521168, 144051130288691), (538581582047297, 139058084892727), (679085914772009, 145896159212404),
  (823908758045139, 139678499923949), (964724807968725, 145996449579028), (1109603040117779, 139710637574397),
  (1250435211363859, 146001623858664), (1395316296506043, 139712291483063),
  (1536149297341456, 146001890089969), (1681030529265795, 139712376570306),
  (1821863572780213, 146001903786401), (1966744812255813, 139712380947630),
  (2107577857965836, 146001904490975), (2252459097829821, 139712381172619),
  (2393292143652362, 146001904526556), (2538173383534888, 139712381180988),
  (2679006429356364, 146001904517895), (2823887669217162, 139712381130922),
  (2964720714930633, 146001904352225), (3109601954433114, 139712380333075),
  (3250434998440880, 146001901741505), (3395316232299245, 139712367766995),
  (3536149249442959, 146001860624209), (3681030394410163, 139712169859673),
  (3821862988463276, 146001213055192), (3966742733511568, 139709053138583),
  (4107568664601300, 145991015062725), (4252426377306214, 139660015894383),
  (4393147484260325, 145830609239335), (4537661997211173, 138899841312870),
  (4676761924753721, 143361212024655), (4816645577442538, 129528542708885),
  (4938357794314128, 121166380185638), (5061642205685872, 121166380185638),
  (5183354422557461, 129528542708885), (5323238075246279, 143361212024654),
  (5462338002788827, 138899841312870), (5606852515739675, 145830609239335),
  (5747573622693786, 139660015894384), (5892431335398700, 145991015062724),
  (6033257266488431, 139709053138584), (6178137011536724, 146001213055192),
  (6318969605589837, 139712169859674), (6463850750557042, 146001860624208),
  (6604683767700754, 139712367766996), (6749565001559121, 146001901741505),
  (6890398045566886, 139712380333076), (7035279285069368, 146001904352224),
  (7176112330782838, 139712381130923), (7320993570643637, 146001904517895),
  (7461826616465113, 139712381180988), (7606707856347638, 146001904526556),
  (7747540902170178, 139712381172619), (7892422142034163, 146001904490974),
  (8033255187744186, 139712380947631), (8178136427219787, 146001903786400),
  (8318969470734204, 139712376570307), (8463850702658544, 146001890089968),
  (8604683703493957, 139712291483063), (8749564788636142, 146001623858663),
  (8890396959882220, 139710637574398), (9035275192031275, 145996449579027),
  (9176091241954860, 139678499923949), (9320914085227991, 145896159212404),
  (9461418417952703, 139058084892728), (9605189850478832, 144051130288690),
  (9740171200690338, 128275286569227), (9868743388703559, 125274603989800), (9971692770021088, 70483356913842)]

/-- precomputed_ggq_rules_reduced2.cpp L2865-2940, entry 35 of `S_6_2_precomputed`. -/
def S_6_2_precomputed_row35 : List (Int × Int) := [
  (27520918035053, 68525485888457), (127610594315984, 121794753878973), (252611332662171, 124712084164525),
  (383843200923358, 140049710002894), (523620982545983, 135195360312374), (660222417139453, 141843488123171),
  (801022403654996, 135798541592728), (937926896636261, 141940992646277), (1078780733447841, 135829786530664),
  (1215700899937085, 141946023195923), (1356557510491986, 135831394497422),
  (1493478483526415, 141946282031914), (1634335236786190, 135831477221132),
  (1771256251314098, 141946295347892), (1912113011915380, 135831481476873),
  (2049034028577924, 141946296032925), (2189890789556869, 135831481695760),
  (2326811806329124, 141946296068004), (2467668567327145, 135831481706235),
  (2604589584103364, 141946296067237), (2745446345096809, 135831481694400),
  (2882367361846777, 141946296026708), (3023224122752453, 135831481498905),
  (3160145139084438, 141946295386938), (3301001898606988, 135831478419505),
  (3437922908355762, 141946285310874), (3578779646094902, 135831429920868),
  (3715700552162203, 141946126619209), (3856556946829817, 135830666109182),
  (3993476220005325, 141943627373238), (4134327212465399, 135818639581611),
  (4271220775575167, 141904278428259), (4411986923749027, 135629982312989),
  (4548477330498331, 141287800308119), (4687962866853828, 132839863704304),
  (4818603505139968, 132605658924219), (4945905317300580, 114503599899291),
  (5054094682699419, 114503599899292), (5181396494860032, 132605658924218),
  (5312037133146172, 132839863704304), (5451522669501669, 141287800308118),
  (5588013076250973, 135629982312990), (5728779224424833, 141904278428259),
  (5865672787534600, 135818639581611), (6006523779994675, 141943627373238),
  (6143443053170182, 135830666109183), (6284299447837796, 141946126619209),
  (6421220353905097, 135831429920868), (6562077091644238, 141946285310873),
  (6698998101393011, 135831478419506), (6839854860915562, 141946295386938),
  (6976775877247547, 135831481498905), (7117632638153223, 141946296026708),
  (7254553654903191, 135831481694401), (7395410415896636, 141946296067237),
  (7532331432672854, 135831481706236), (7673188193670876, 141946296068003),
  (7810109210443129, 135831481695761), (7950965971422075, 141946296032924),
  (8087886988084619, 135831481476873), (8228743748685902, 141946295347891),
  (8365664763213809, 135831477221132), (8506521516473584, 141946282031914),
  (8643442489508013, 135831394497423), (8784299100062916, 141946023195922),
  (8921219266552158, 135829786530664), (9062073103363739, 141940992646276),
  (9198977596345004, 135798541592729), (9339777582860547, 141843488123170),
  (9476379017454016, 135195360312375), (9616156799076643, 140049710002893),
  (9747388667337828, 124712084164526), (9872389405684016, 121794753878972), (9972479081964947, 68525485888457)]

/-- precomputed_ggq_rules_reduced2.cpp L2941-3018, entry 36 of `S_6_2_precomputed`. -/
def S_6_2_precomputed_row36 : List (Int × Int) := [
  (26777109439511, 66673445729310), (124161659334471, 118503003774136), (245783999346977, 121341487295214),
  (373469060357862, 136264582705518), (509469064098795, 131541431655283), (642378568027576, 138009880336058),
  (779373149502159, 132128310738871), (912577521051497, 138104749601783), (1049624497408710, 132158711219024),
  (1182844118857704, 138109644190628), (1319893793992203, 132160275727221),
  (1453114200187864, 138109896031052), (1590164014170347, 132160356215155),
  (1723384460738042, 138109908987138), (1860434281863615, 132160360355879),
  (1993654730508257, 138109909653665), (2130704552001303, 132160360568887),
  (2263925000752769, 138109909687914), (2400974822264632, 132160360579653),
  (2534195271021182, 138109909689047), (2671245092532651, 132160360577173),
  (2804465541282979, 138109909679181), (2941515362772973, 132160360529280),
  (3074735811420866, 138109909522379), (3211785632571864, 132160359774532),
  (3345006079606238, 138109907052776), (3482055895418205, 132160347887698),
  (3615276317040637, 138109868158035), (3752326048766370, 132160160678069),
  (3885546070167964, 138109255592750), (4022594477646079, 132157212428389),
  (4155808196244474, 138099608843119), (4292835762316690, 132110825846038),
  (4425950322948956, 137947873604777), (4562653240605164, 131391741782444),
  (4694234253145412, 135611957320619), (4826556627310509, 122526999859755),
  (4941689805432283, 114616846121549), (5058310194567718, 114616846121549),
  (5173443372689491, 122526999859756), (5305765746854588, 135611957320620),
  (5437346759394837, 131391741782444), (5574049677051044, 137947873604777),
  (5707164237683311, 132110825846038), (5844191803755527, 138099608843118),
  (5977405522353921, 132157212428389), (6114453929832037, 138109255592750),
  (6247673951233631, 132160160678069), (6384723682959363, 138109868158036),
  (6517944104581795, 132160347887698), (6654993920393762, 138109907052776),
  (6788214367428136, 132160359774532), (6925264188579134, 138109909522379),
  (7058484637227027, 132160360529280), (7195534458717022, 138109909679181),
  (7328754907467350, 132160360577173), (7465804728978819, 138109909689047),
  (7599025177735368, 132160360579652), (7736074999247231, 138109909687915),
  (7869295447998698, 132160360568887), (8006345269491743, 138109909653665),
  (8139565718136386, 132160360355879), (8276615539261959, 138109908987138),
  (8409835985829653, 132160356215155), (8546885799812137, 138109896031052),
  (8680106206007798, 132160275727221), (8817155881142296, 138109644190628),
  (8950375502591290, 132158711219024), (9087422478948504, 138104749601783),
  (9220626850497842, 132128310738870), (9357621431972425, 138009880336058),
  (9490530935901206, 131541431655282), (9626530939642138, 136264582705519),
  (9754216000653023, 121341487295213), (9875838340665529, 118503003774137), (9973222890560489, 66673445729309)]

/-- precomputed_ggq_rules_reduced2.cpp L3019-3098, entry 37 of `S_6_2_precomputed`. -/
def S_6_2_precomputed_row37 : List (Int × Int) := [
  (26072448664787, 64918881368012), (120894247246722, 115384503674816), (239315999364162, 118148290261129),
  (363640927190550, 132678672634321), (496061983464616, 128079815032775), (625473868868956, 134378041379846),
  (758863329778418, 128651249929953), (888562323129089, 134470414085947), (1022002800108481, 128680850397471),
  (1151716642045659, 134475179869822), (1285159746781881, 128682373734400),
  (1414874352814499, 134475425082866), (1548317592744812, 128682452104230),
  (1678032238087041, 134475437698003), (1811475484972467, 128682456135988),
  (1941190132336989, 134475438346992), (2074633379580222, 128682456343399),
  (2204348027048774, 134475438380369), (2337791274310393, 128682456354022),
  (2467505921784197, 134475438381932), (2600949169046428, 128682456353825),
  (2730663816518910, 134475438379576), (2864107063775906, 128682456342092),
  (2993821711223260, 134475438341097), (3127264958397060, 128682456156858),
  (3256979605448415, 134475437734994), (3390422851311883, 128682453239531),
  (3520137492126511, 134475428189249), (3653580717353065, 128682407293454),
  (3783295259943140, 134475277849777), (3916738160154564, 128681683682383),
  (4046451155794519, 134472910143068), (4179888938125115, 128670290129947),
  (4309577576860685, 134435632195193), (4442934980393815, 128491562191253),
  (4572241681524735, 133851600291902), (4704385873861521, 125848291930393),
  (4828150689079970, 125626413717681), (4948752405863708, 108477094641434),
  (5051247594136292, 108477094641434), (5171849310920030, 125626413717681),
  (5295614126138478, 125848291930393), (5427758318475264, 133851600291903),
  (5557065019606184, 128491562191253), (5690422423139315, 134435632195192),
  (5820111061874885, 128670290129947), (5953548844205482, 134472910143068),
  (6083261839845436, 128681683682383), (6216704740056860, 134475277849778),
  (6346419282646935, 128682407293453), (6479862507873488, 134475428189249),
  (6609577148688116, 128682453239531), (6743020394551584, 134475437734995),
  (6872735041602940, 128682456156859), (7006178288776740, 134475438341096),
  (7135892936224093, 128682456342091), (7269336183481090, 134475438379577),
  (7399050830953572, 128682456353824), (7532494078215802, 134475438381932),
  (7662208725689607, 128682456354022), (7795651972951225, 134475438380369),
  (7925366620419778, 128682456343399), (8058809867663010, 134475438346992),
  (8188524515027532, 128682456135987), (8321967761912958, 134475437698004),
  (8451682407255188, 128682452104230), (8585125647185501, 134475425082867),
  (8714840253218118, 128682373734400), (8848283357954340, 134475179869822),
  (8977997199891518, 128680850397471), (9111437676870910, 134470414085946),
  (9241136670221582, 128651249929953), (9374526131131043, 134378041379847),
  (9503938016535384, 128079815032775), (9636359072809449, 132678672634321),
  (9760684000635838, 118148290261129), (9879105752753278, 115384503674816), (9973927551335212, 64918881368012)]

/-- precomputed_ggq_rules_reduced2.cpp L3099-3180, entry 38 of `S_6_2_precomputed`. -/
def S_6_2_precomputed_row38 : List (Int × Int) := [
  (25403924340049, 63254294666268), (117794394753216, 112425926657513), (233179691688158, 115118846921100),
  (354316800852330, 129276655387287), (483342445427062, 124795717211422), (609436077359495, 130932450575235),
  (739405295681535, 125352499931749), (865778673818087, 131022454750410), (995797600105700, 125381341412920),
  (1122185446095771, 131027098334698), (1252206932761833, 125382825689928),
  (1378595523255152, 131027337260228), (1508617141648791, 125382902050276),
  (1635005770443783, 131027349551901), (1765027395614199, 125382905978655),
  (1891416026379631, 131027350184249), (2021437651898679, 125382906180750),
  (2147826282765479, 131027350216777), (2277847908302458, 125382906191136),
  (2404236539174448, 131027350218413), (2534258164712267, 125382906191487),
  (2660646795584133, 131027350217900), (2790668421120703, 125382906188628),
  (2917057051986413, 131027350208458), (3047078677502564, 125382906143164),
  (3173467308271077, 131027350059693), (3303488933465614, 125382905427121),
  (3429877562703353, 131027347716736), (3559899182832656, 125382894149867),
  (3686287787961630, 131027310816597), (3816309328316812, 125382716540733),
  (3942697553749094, 131026729664917), (4072717837766792, 125379919483343),
  (4199100083616552, 131017577620394), (4329100595018398, 125335911700087),
  (4455388767925932, 130873623676326), (4585081279548489, 124653703742319),
  (4709914547855903, 128657497970844), (4835451159243303, 116243563969512),
  (4944680071820371, 108739059140957), (5055319928179629, 108739059140957),
  (5164548840756696, 116243563969511), (5290085452144097, 128657497970844),
  (5414918720451511, 124653703742319), (5544611232074067, 130873623676327),
  (5670899404981602, 125335911700087), (5800899916383448, 131017577620395),
  (5927282162233207, 125379919483343), (6057302446250906, 131026729664917),
  (6183690671683187, 125382716540733), (6313712212038370, 131027310816597),
  (6440100817167344, 125382894149867), (6570122437296646, 131027347716736),
  (6696511066534385, 125382905427120), (6826532691728923, 131027350059694),
  (6952921322497436, 125382906143164), (7082942948013587, 131027350208458),
  (7209331578879297, 125382906188628), (7339353204415866, 131027350217900),
  (7465741835287734, 125382906191488), (7595763460825552, 131027350218412),
  (7722152091697542, 125382906191135), (7852173717234520, 131027350216778),
  (7978562348101320, 125382906180750), (8108583973620369, 131027350184249),
  (8234972604385801, 125382905978655), (8364994229556216, 131027349551901),
  (8491382858351209, 125382902050275), (8621404476744847, 131027337260229),
  (8747793067238167, 125382825689929), (8877814553904230, 131027098334698),
  (9004202399894300, 125381341412920), (9134221326181913, 131022454750410),
  (9260594704318464, 125352499931749), (9390563922640504, 130932450575235),
  (9516657554572938, 124795717211422), (9645683199147669, 129276655387287),
  (9766820308311842, 115118846921100), (9882205605246783, 112425926657514), (9974596075659951, 63254294666268)]

/-- precomputed_ggq_rules_reduced2.cpp L3181-3264, entry 39 of `S_6_2_precomputed`. -/
def S_6_2_precomputed_row39 : List (Int × Int) := [
  (24768826231548, 61672937299611), (114849534884386, 109615278491076), (227350199395954, 112240875748073),
  (345458880831022, 126044739002605), (471258884291385, 121675824281137), (594200175425508, 127659139310854),
  (720920163289497, 122218687433455), (844134206972635, 127746893381649), (970902660103057, 122246807877597),
  (1094130809943376, 127751420876331), (1220901759442787, 122248255047680),
  (1344130635173774, 127751653828723), (1470901713107572, 122248329499019),
  (1594130626182689, 127751665813103), (1720901710723844, 122248333329189),
  (1844130625720140, 127751666429642), (1970901710601213, 122248333526232),
  (2094130625696344, 127751666461360), (2220901710594902, 122248333536367),
  (2344130625695112, 127751666462982), (2470901710594549, 122248333536843),
  (2594130625694924, 127751666462919), (2720901710594090, 122248333536160),
  (2844130625692962, 127751666460602), (2970901710587111, 122248333524988),
  (3094130625662097, 127751666424042), (3220901710477207, 122248333349016),
  (3344130625175994, 127751665848244), (3470901708746290, 122248330577555),
  (3594130617520185, 127751656779786), (3720901681485412, 122248286928781),
  (3844130496945983, 127751513957288), (3970901252146836, 122247599498264),
  (4094128598004793, 127749264635914), (4220894491218860, 122236775623450),
  (4344098698017650, 127713850585433), (4470788231374125, 122066984081691),
  (4593629597448498, 127159020277307), (4719166580168446, 119555877333873),
  (4836743154625971, 119345093031797), (4951314785570523, 103053239909362),
  (5048685214429478, 103053239909362), (5163256845374028, 119345093031797),
  (5280833419831554, 119555877333873), (5406370402551501, 127159020277307),
  (5529211768625876, 122066984081690), (5655901301982350, 127713850585433),
  (5779105508781142, 122236775623449), (5905871401995209, 127749264635915),
  (6029098747853165, 122247599498264), (6155869503054018, 127751513957288),
  (6279098318514588, 122248286928781), (6405869382479814, 127751656779787),
  (6529098291253711, 122248330577554), (6655869374824006, 127751665848245),
  (6779098289522794, 122248333349015), (6905869374337904, 127751666424042),
  (7029098289412891, 122248333524988), (7155869374307039, 127751666460602),
  (7279098289405911, 122248333536161), (7405869374305076, 127751666462918),
  (7529098289405450, 122248333536842), (7655869374304888, 127751666462983),
  (7779098289405099, 122248333536366), (7905869374303657, 127751666461360),
  (8029098289398788, 122248333526232), (8155869374279860, 127751666429643),
  (8279098289276157, 122248333329188), (8405869373817312, 127751665813103),
  (8529098286892429, 122248329499019), (8655869364826227, 127751653828722),
  (8779098240557213, 122248255047679), (8905869190056623, 127751420876331),
  (9029097339896943, 122246807877597), (9155865793027366, 127746893381650),
  (9279079836710504, 122218687433455), (9405799824574492, 127659139310854),
  (9528741115708615, 121675824281136), (9654541119168978, 126044739002605),
  (9772649800604047, 112240875748073), (9885150465115615, 109615278491075), (9975231173768452, 61672937299612)]

/-- precomputed_ggq_rules_reduced2.cpp L3265-3350, entry 40 of `S_6_2_precomputed`. -/
def S_6_2_precomputed_row40 : List (Int × Int) := [
  (24164708518583, 60168719316694), (112048326716474, 106941735113245), (221805072581419, 109503293412754),
  (337033054469290, 122970477075712), (459764765162327, 118708121249889), (579707488220008, 124545501766687),
  (703336744672680, 119237743837517), (823545567778180, 124631115494292), (947222107417617, 119265178417168),
  (1067444692627684, 124635532562274), (1191123667749061, 119266590290419),
  (1311346961145145, 124635759832900), (1435026061568362, 119266662925872),
  (1555249391397745, 124635771524979), (1678928498267165, 119266666662623),
  (1799151829970869, 124635772126480), (1922830937171915, 119266666854861),
  (2043054268972043, 124635772157425), (2166733376190150, 119266666864750),
  (2286956707995237, 124635772159014), (2410635815214216, 119266666865248),
  (2530859147019535, 124635772159060), (2654538254238482, 119266666865099),
  (2774761586043441, 124635772158494), (2898440693261156, 119266666862355),
  (3018664025060245, 124635772149509), (3142343132258536, 119266666819108),
  (3262566463965171, 124635772008001), (3386245570857536, 119266666137993),
  (3506468901108067, 124635769779334), (3630148003182282, 119266655410850),
  (3750371310500087, 124635734679203), (3874050336691602, 119266486465575),
  (3994273282834504, 124635181876384), (4117951113973291, 119263825850010),
  (4238168372220622, 124626476273058), (4361827395261402, 119221964787888),
  (4481955169490521, 124489544472604), (4605321217131489, 118573035267084),
  (4724065057716590, 122381522460071), (4843477931963142, 110573146214902),
  (4947378604902304, 103434714792618), (5052621395097696, 103434714792618),
  (5156522068036858, 110573146214902), (5275934942283410, 122381522460071),
  (5394678782868512, 118573035267084), (5518044830509480, 124489544472603),
  (5638172604738598, 119221964787888), (5761831627779379, 124626476273057),
  (5882048886026711, 119263825850010), (6005726717165496, 124635181876384),
  (6125949663308398, 119266486465575), (6249628689499914, 124635734679202),
  (6369851996817718, 119266655410850), (6493531098891933, 124635769779334),
  (6613754429142464, 119266666137993), (6737433536034829, 124635772008000),
  (6857656867741464, 119266666819108), (6981335974939755, 124635772149509),
  (7101559306738845, 119266666862355), (7225238413956560, 124635772158494),
  (7345461745761519, 119266666865100), (7469140852980465, 124635772159060),
  (7589364184785784, 119266666865248), (7713043292004763, 124635772159014),
  (7833266623809850, 119266666864750), (7956945731027958, 124635772157424),
  (8077169062828086, 119266666854861), (8200848170029132, 124635772126480),
  (8321071501732835, 119266666662623), (8444750608602255, 124635771524979),
  (8564973938431638, 119266662925872), (8688653038854856, 124635759832900),
  (8808876332250939, 119266590290420), (8932555307372316, 124635532562273),
  (9052777892582383, 119265178417169), (9176454432221820, 124631115494292),
  (9296663255327321, 119237743837518), (9420292511779993, 124545501766686),
  (9540235234837674, 118708121249889), (9662966945530710, 122970477075712),
  (9778194927418581, 109503293412754), (9887951673283526, 106941735113244), (9975835291481416, 60168719316694)]

/-- precomputed_ggq_rules_reduced2.cpp L3351-3438, entry 41 of `S_6_2_precomputed`. -/
def S_6_2_precomputed_row41 : List (Int × Int) := [
  (23589358315760, 58736130761535), (109380509413701, 104395503324834), (216523999424718, 106896072141022),
  (329008457934307, 120042608573909), (448817985039414, 115881737410606), (565904928976674, 121580132677004),
  (686590631704282, 116398749936624), (803937339973938, 121663707982523), (924669200098150, 116425531311998),
  (1042029342803216, 121668019882220), (1162763580421702, 116426909569219),
  (1280124414451213, 121668241741641), (1400858774388163, 116426980475256),
  (1518219643983513, 121668253155336), (1638954010213185, 116426984123037),
  (1756314881638229, 121668253742517), (1877049248191631, 116426984310697),
  (1994410119710804, 121668253772724), (2115144486280860, 116426984320352),
  (2232505357804876, 121668253774278), (2353239724375788, 116426984320846),
  (2470600595900046, 121668253774349), (2591334962470983, 116426984320828),
  (2708695833995163, 121668253774213), (2829430200565799, 116426984320154),
  (2946791072088535, 121668253772002), (3067525438654391, 116426984309513),
  (3184886310154377, 121668253737183), (3305620676644959, 116426984141920),
  (3422981547786661, 121668253188804), (3543715913091704, 116426981502433),
  (3661076778590653, 121668244552178), (3781811125224202, 116426939932172),
  (3899171901853318, 121668108530751), (4019905954425558, 116426285236442),
  (4137265331433135, 121665966319918), (4257994753541771, 116415976784238),
  (4375332093350143, 121632238652793), (4495988791784880, 116254270553991),
  (4612980568998570, 121103828835531), (4732539600160424, 113862740317975),
  (4844517290119973, 113661993363616), (4953633129114783, 98145942770821), (5046366870885217, 98145942770821),
  (5155482709880026, 113661993363616), (5267460399839575, 113862740317974),
  (5387019431001430, 121103828835531), (5504011208215118, 116254270553991),
  (5624667906649856, 121632238652794), (5742005246458228, 116415976784238),
  (5862734668566864, 121665966319919), (5980094045574442, 116426285236442),
  (6100828098146682, 121668108530751), (6218188874775797, 116426939932173),
  (6338923221409347, 121668244552177), (6456284086908295, 116426981502433),
  (6577018452213338, 121668253188804), (6694379323355041, 116426984141920),
  (6815113689845622, 121668253737183), (6932474561345608, 116426984309513),
  (7053208927911465, 121668253772002), (7170569799434200, 116426984320154),
  (7291304166004836, 121668253774213), (7408665037529015, 116426984320828),
  (7529399404099952, 121668253774349), (7646760275624211, 116426984320845),
  (7767494642195124, 121668253774278), (7884855513719139, 116426984320351),
  (8005589880289196, 121668253772724), (8122950751808369, 116426984310698),
  (8243685118361771, 121668253742516), (8361045989786814, 116426984123036),
  (8481780356016486, 121668253155336), (8599141225611836, 116426980475256),
  (8719875585548786, 121668241741641), (8837236419578297, 116426909569220),
  (8957970657196783, 121668019882219), (9075330799901850, 116425531311997),
  (9196062660026061, 121663707982523), (9313409368295716, 116398749936624),
  (9434095071023325, 121580132677004), (9551182014960585, 115881737410606),
  (9670991542065692, 120042608573909), (9783476000575282, 106896072141022),
  (9890619490586299, 104395503324835), (9976410641684240, 58736130761534)]

/-- precomputed_ggq_rules_reduced2.cpp L3439-3528, entry 42 of `S_6_2_precomputed`. -/
def S_6_2_precomputed_row42 : List (Int × Int) := [
  (23040768587486, 57370174232197), (106836776636638, 101967700921931), (211488557577632, 104410116974952),
  (321357098447462, 117250920002423), (438380357480358, 113186813284778), (552744349233031, 118752687731027),
  (670623407711160, 113691802263679), (785241122765242, 118834319424790), (903165265212146, 113717960816370),
  (1017796102272908, 118838531047749), (1135722566923523, 113719307021098),
  (1250354079231417, 118838747747649), (1368280663355880, 113719376278157),
  (1482912210402501, 118838758895910), (1600838800673343, 113719379841106),
  (1715470349507107, 118838759469435), (1833396940094151, 113719380024402),
  (1948028489019855, 118838759498940), (2065955079623166, 113719380033832),
  (2180586628553600, 118838759500458), (2298513219157748, 113719380034317),
  (2413144768088423, 118838759500534), (2531071358692610, 113719380034331),
  (2645702907623275, 118838759500503), (2763629498227388, 113719380034166),
  (2878261047157699, 118838759499960), (2996187637760637, 113719380031548),
  (3110819186685350, 118838759491392), (3228745777269767, 113719379990312),
  (3343377326106327, 118838759356466), (3461303916399046, 113719379340877),
  (3575935463847227, 118838757231458), (3693862049545897, 113719369112671),
  (3808493575127990, 118838723763891), (3926420088473388, 113719208025316),
  (4041051269679410, 118838196672831), (4158976643555928, 113716671159312),
  (4273602401419663, 118829895981288), (4391509841993430, 113676757123335),
  (4506050277886311, 118699333101785), (4623678369823048, 113058010370940),
  (4736899241078610, 116689358624719), (4850758028150903, 105430209181650), (4949826111651034, 98623797825519),
  (5050173888348967, 98623797825519), (5149241971849097, 105430209181650), (5263100758921390, 116689358624719),
  (5376321630176951, 113058010370940), (5493949722113689, 118699333101784),
  (5608490158006569, 113676757123335), (5726397598580337, 118829895981288),
  (5841023356444072, 113716671159312), (5958948730320589, 118838196672832),
  (6073579911526612, 113719208025316), (6191506424872011, 118838723763890),
  (6306137950454103, 113719369112671), (6424064536152773, 118838757231458),
  (6538696083600954, 113719379340877), (6656622673893674, 118838759356466),
  (6771254222730233, 113719379990312), (6889180813314649, 118838759491392),
  (7003812362239363, 113719380031547), (7121738952842300, 118838759499960),
  (7236370501772611, 113719380034166), (7354297092376725, 118838759500503),
  (7468928641307391, 113719380034331), (7586855231911577, 118838759500533),
  (7701486780842253, 113719380034316), (7819413371446400, 118838759500458),
  (7934044920376834, 113719380033832), (8051971510980145, 118838759498940),
  (8166603059905848, 113719380024402), (8284529650492892, 118838759469435),
  (8399161199326656, 113719379841106), (8517087789597498, 118838758895910),
  (8631719336644119, 113719376278157), (8749645920768583, 118838747747649),
  (8864277433076477, 113719307021097), (8982203897727091, 118838531047750),
  (9096834734787853, 113717960816370), (9214758877234758, 118834319424790),
  (9329376592288841, 113691802263679), (9447255650766969, 118752687731027),
  (9561619642519642, 113186813284778), (9678642901552537, 117250920002423),
  (9788511442422368, 104410116974952), (9893163223363362, 101967700921931), (9976959231412513, 57370174232197)]

/-- precomputed_ggq_rules_reduced2.cpp L3529-3620, entry 43 of `S_6_2_precomputed`. -/
def S_6_2_precomputed_row43 : List (Int × Int) := [
  (22517114755953, 56066306636010), (104408668076714, 99650253173705), (206681999450867, 102037159770975),
  (314053528028202, 114586126366004), (428417167537623, 110614385710124), (540181977659553, 116053763009867),
  (655381966626815, 111107897666777), (767394733611486, 116133539437863), (882638781911870, 111133461706907),
  (994664372675797, 116137655342119), (1109910690402534, 111134777316073), (1221936941067067, 116137867117021),
  (1337183375552338, 111134844999108), (1449209660166081, 116137878011912),
  (1564456100658040, 111134848481080), (1676482387018309, 116137878572402),
  (1791728827819284, 111134848660211), (1903755114269404, 116137878601237),
  (2019001555086276, 111134848669427), (2131027841541019, 116137878602720),
  (2246274282358709, 111134848669901), (2358300568813688, 116137878602796),
  (2473547009631419, 111134848669922), (2585573296086405, 116137878602792),
  (2700819736904120, 111134848669882), (2812846023359019, 116137878602658),
  (2928092464176444, 111134848669238), (3040118750629965, 116137878600548),
  (3155365191442828, 111134848659080), (3267391477874633, 116137878567311),
  (3382637918615642, 111134848499105), (3494664204705450, 116137878043859),
  (3609910644314808, 111134845979595), (3721936925018350, 116137869799806),
  (3837183346804920, 111134806298892), (3949209542678166, 116137739961172),
  (4064455683769851, 111134181362058), (4176480543640720, 116135695123559),
  (4291722264744418, 111124341475863), (4403726089106955, 116103500532212),
  (4518898392158295, 110969985528810), (4630572361316817, 115599109343007),
  (4744696891062223, 108687161212612), (4851584686023611, 108495539119816), (4955740714155020, 93684763553965),
  (5044259285844980, 93684763553965), (5148415313976390, 108495539119815), (5255303108937777, 108687161212613),
  (5369427638683183, 115599109343006), (5481101607841704, 110969985528809),
  (5596273910893045, 116103500532212), (5708277735255582, 111124341475864),
  (5823519456359281, 116135695123558), (5935544316230149, 111134181362059),
  (6050790457321834, 116137739961171), (6162816653195080, 111134806298892),
  (6278063074981650, 116137869799805), (6390089355685191, 111134845979596),
  (6505335795294551, 116137878043858), (6617362081384357, 111134848499105),
  (6732608522125367, 116137878567311), (6844634808557173, 111134848659081),
  (6959881249370036, 116137878600547), (7071907535823556, 111134848669238),
  (7187153976640982, 116137878602657), (7299180263095880, 111134848669883),
  (7414426703913596, 116137878602791), (7526452990368581, 111134848669923),
  (7641699431186312, 116137878602795), (7753725717641291, 111134848669900),
  (7868972158458981, 116137878602721), (7980998444913724, 111134848669427),
  (8096244885730597, 116137878601236), (8208271172180716, 111134848660212),
  (8323517612981691, 116137878572402), (8435543899341960, 111134848481081),
  (8550790339833920, 116137878011911), (8662816624447662, 111134844999109),
  (8778063058932933, 116137867117020), (8890089309597465, 111134777316072),
  (9005335627324204, 116137655342119), (9117361218088130, 111133461706907),
  (9232605266388515, 116133539437862), (9344618033373185, 111107897666778),
  (9459818022340448, 116053763009867), (9571582832462378, 110614385710125),
  (9685946471971799, 114586126366004), (9793318000549133, 102037159770976), (9895591331923286, 99650253173704),
  (9977482885244048, 56066306636010)]

/-- precomputed_ggq_rules_reduced2.cpp L3621-3714, entry 44 of `S_6_2_precomputed`. -/
def S_6_2_precomputed_row44 : List (Int × Int) := [
  (22016734428043, 54820388710766), (102088475452787, 97435803103178), (202089066129737, 99769667331620),
  (307074560738686, 112039768002315), (418896786036787, 108156288249899), (528177933711563, 113474790498537),
  (640817922923997, 108638833274182), (750341517309009, 113552794117022), (863024586758273, 108663829224531),
  (972560719949668, 113556818556738), (1085246008393589, 108665115597938), (1194782786821132, 113557025625531),
  (1307468189428952, 108665181776906), (1417005001051279, 113557036278314),
  (1529690409532306, 108665185181501), (1639227222862347, 113557036826349),
  (1751912631645522, 108665185356651), (1861449445063417, 113557036854543),
  (1974134853862137, 108665185365662), (2083671667284551, 113557036855993),
  (2196357076084071, 108665185366125), (2305893889506718, 113557036856068),
  (2418579298306278, 108665185366148), (2528116111728935, 113557036856070),
  (2640801520528492, 108665185366139), (2750338333951129, 113557036856037),
  (2863023742750616, 108665185365981), (2972560556172913, 113557036855517),
  (3085245964971275, 108665185363479), (3194782778388224, 113557036847331),
  (3307468187168889, 108665185324076), (3417005000501601, 113557036718401),
  (3529690409003532, 108665184703504), (3639227221009573, 113557034687838),
  (3751912625121635, 108665174929885), (3861449416233412, 113557002707718),
  (3974134751207904, 108665021001968), (4083671213249215, 113556499042928),
  (4196355459397887, 108662596885564), (4305886739134345, 113548567271008),
  (4418553849015945, 108624456806742), (4528003598869141, 113423807186150),
  (4640403775608690, 108033209910009), (4748592608141783, 111503164908065),
  (4857391004677530, 100744422106910), (4952056062244322, 94240517922163), (5047943937755679, 94240517922163),
  (5142608995322471, 100744422106910), (5251407391858217, 111503164908065),
  (5359596224391310, 108033209910010), (5471996401130859, 113423807186150),
  (5581446150984056, 108624456806742), (5694113260865656, 113548567271008),
  (5803644540602113, 108662596885564), (5916328786750785, 113556499042928),
  (6025865248792096, 108665021001968), (6138550583766588, 113557002707718),
  (6248087374878365, 108665174929885), (6360772778990428, 113557034687838),
  (6470309590996468, 108665184703504), (6582994999498401, 113557036718401),
  (6692531812831112, 108665185324076), (6805217221611777, 113557036847331),
  (6914754035028725, 108665185363479), (7027439443827088, 113557036855517),
  (7136976257249384, 108665185365981), (7249661666048871, 113557036856037),
  (7359198479471508, 108665185366139), (7471883888271065, 113557036856070),
  (7581420701693723, 108665185366148), (7694106110493283, 113557036856068),
  (7803642923915930, 108665185366125), (7916328332715449, 113557036855993),
  (8025865146137864, 108665185365662), (8138550554936583, 113557036854543),
  (8248087368354479, 108665185356651), (8360772777137653, 113557036826350),
  (8470309590467694, 108665185181501), (8582994998948721, 113557036278314),
  (8692531810571048, 108665181776905), (8805217213178869, 113557025625531),
  (8914753991606412, 108665115597937), (9027439280050332, 113556818556739),
  (9136975413241727, 108663829224531), (9249658482690991, 113552794117022),
  (9359182077076004, 108638833274182), (9471822066288438, 113474790498537),
  (9581103213963214, 108156288249899), (9692925439261314, 112039768002315), (9797910933870264, 99769667331620),
  (9897911524547213, 97435803103179), (9977983265571957, 54820388710765)]

/-- `S_6_2_precomputed`, precomputed_ggq_rules_reduced2.cpp L1463-3715. -/
def S_6_2_precomputed : List (List (Int × Int)) := [
  S_6_2_precomputed_row0, S_6_2_precomputed_row1, S_6_2_precomputed_row2, S_6_2_precomputed_row3,
  S_6_2_precomputed_row4, S_6_2_precomputed_row5, S_6_2_precomputed_row6, S_6_2_precomputed_row7,
  S_6_2_precomputed_row8, S_6_2_precomputed_row9, S_6_2_precomputed_row10, S_6_2_precomputed_row11,
  S_6_2_precomputed_row12, S_6_2_precomputed_row13, S_6_2_precomputed_row14, S_6_2_precomputed_row15,
  S_6_2_precomputed_row16, S_6_2_precomputed_row17, S_6_2_precomputed_row18, S_6_2_precomputed_row19,
  S_6_2_precomputed_row20, S_6_2_precomputed_row21, S_6_2_precomputed_row22, S_6_2_precomputed_row23,
  S_6_2_precomputed_row24, S_6_2_precomputed_row25, S_6_2_precomputed_row26, S_6_2_precomputed_row27,
  S_6_2_precomputed_row28, S_6_2_precomputed_row29, S_6_2_precomputed_row30, S_6_2_precomputed_row31,
  S_6_2_precomputed_row32, S_6_2_precomputed_row33, S_6_2_precomputed_row34, S_6_2_precomputed_row35,
  S_6_2_precomputed_row36, S_6_2_precomputed_row37, S_6_2_precomputed_row38, S_6_2_precomputed_row39,
  S_6_2_precomputed_row40, S_6_2_precomputed_row41, S_6_2_precomputed_row42, S_6_2_precomputed_row43,
  S_6_2_precomputed_row44]

end QuESo.Rules.Tables
