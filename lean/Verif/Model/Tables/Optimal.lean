/-!
# Tables of one-dimensional rules (generated from the source text)

`queso/quadrature/integration_points_1d/precomputed_ggq_rules_optimal.cpp`.  Every entry (position, weight) is the decimal number of the
source multiplied by `10 ^ 16`; the rounding of the decimal to the nearest `double` is not modelled.
-/
namespace QuESo.Rules.Tables

/-- precomputed_ggq_rules_optimal.cpp L21-44, entry 0 of `S_4_0_base_even`. -/
def S_4_0_base_even_row0 : List (Int × Int) := [
  (1550510257216821, 3764030627004672), (6449489742783177, 5124858261884216),
  (10961818808345415, 4499083234521527), (16238181191654583, 5435557288354290),
  (20940680306370120, 4552875074262550), (26231733486733328, 5445144335521565),
  (30940054122305138, 4554514811675806), (36231543510830954, 5445426834712980),
  (40940035685747737, 4554563131231461), (46231537918313172, 5445435150954828),
  (50940035143023196, 4554564553669906), (56231537753684692, 5445435395762341),
  (60940035127046874, 4554564595542622), (66231537748838480, 5445435402968801),
  (70940035126576574, 4554564596775240), (76231537748695821, 5445435403180939),
  (80940035126562737, 4554564596811525), (86231537748691629, 5445435403187184),
  (90940035126562328, 4554564596812593), (96231537748691504, 5445435403187368),
  (100940035126562310, 4554564596812625), (106231537748691480, 5445435403187374)]

/-- precomputed_ggq_rules_optimal.cpp L45-48, entry 1 of `S_4_0_base_even`. -/
def S_4_0_base_even_row1 : List (Int × Int) := [
  (940035126562314, 4554564596812625), (6231537748691495, 5445435403187374)]

/-- precomputed_ggq_rules_optimal.cpp L49-54, entry 2 of `S_4_0_base_even`. -/
def S_4_0_base_even_row2 : List (Int × Int) := [
  (-9059964873437685, 4554564596812625), (-3768462251308504, 5445435403187374), (0, 2357022603955158)]

/-- `S_4_0_base_even`, precomputed_ggq_rules_optimal.cpp L19-55. -/
def S_4_0_base_even : List (List (Int × Int)) := [
  S_4_0_base_even_row0, S_4_0_base_even_row1, S_4_0_base_even_row2]

/-- precomputed_ggq_rules_optimal.cpp L59-82, entry 0 of `S_4_0_base_odd`. -/
def S_4_0_base_odd_row0 : List (Int × Int) := [
  (1550510257216821, 3764030627004672), (6449489742783177, 5124858261884216),
  (10961818808345415, 4499083234521527), (16238181191654583, 5435557288354290),
  (20940680306370120, 4552875074262550), (26231733486733328, 5445144335521565),
  (30940054122305138, 4554514811675806), (36231543510830954, 5445426834712980),
  (40940035685747737, 4554563131231461), (46231537918313172, 5445435150954828),
  (50940035143023196, 4554564553669906), (56231537753684692, 5445435395762341),
  (60940035127046874, 4554564595542622), (66231537748838480, 5445435402968801),
  (70940035126576574, 4554564596775240), (76231537748695821, 5445435403180939),
  (80940035126562737, 4554564596811525), (86231537748691629, 5445435403187184),
  (90940035126562328, 4554564596812593), (96231537748691504, 5445435403187368),
  (100940035126562310, 4554564596812625), (106231537748691480, 5445435403187374)]

/-- precomputed_ggq_rules_optimal.cpp L83-86, entry 1 of `S_4_0_base_odd`. -/
def S_4_0_base_odd_row1 : List (Int × Int) := [
  (940035126562314, 4554564596812625), (6231537748691495, 5445435403187374)]

/-- precomputed_ggq_rules_optimal.cpp L87-91, entry 2 of `S_4_0_base_odd`. -/
def S_4_0_base_odd_row2 : List (Int × Int) := [
  (-4375172639305899, 3715857551856717), (0, 4925307500241723)]

/-- `S_4_0_base_odd`, precomputed_ggq_rules_optimal.cpp L57-92. -/
def S_4_0_base_odd : List (List (Int × Int)) := [
  S_4_0_base_odd_row0, S_4_0_base_odd_row1, S_4_0_base_odd_row2]

/-- precomputed_ggq_rules_optimal.cpp L96-112, entry 0 of `S_6_1_base_even`. -/
def S_6_1_base_even_row0 : List (Int × Int) := [
  (926076787364690, 2305048699152139), (4284719776081420, 4070441617765419),
  (8301893554301429, 3671151647471710), (11864418084568064, 3860513146469309),
  (16139000245489232, 4352195321390286), (20001087149907883, 3484945801852715),
  (23869357046428150, 4362230076851826), (28158755522035257, 3893473849990720),
  (31841245050546591, 3893474498446596), (36130644392673314, 4362230993486436),
  (40000000003658042, 3488588706522378), (43869355635486693, 4362231027342958),
  (48158755028125845, 3893474613257501), (51841244971874154, 3893474613257501),
  (56130644364513306, 4362231027342958)]

/-- precomputed_ggq_rules_optimal.cpp L113-119, entry 1 of `S_6_1_base_even`. -/
def S_6_1_base_even_row1 : List (Int × Int) := [
  (0, 3488588718799080), (3869355635486690, 4362231027342958), (8158755028125850, 3893474613257501),
  (11841244971874149, 3893474613257501), (16130644364513309, 4362231027342958)]

/-- precomputed_ggq_rules_optimal.cpp L120-139, entry 2 of `S_6_1_base_even`. -/
def S_6_1_base_even_row2 : List (Int × Int) := [
  (-65000000000000000, 3488588718799080), (-61130644364513306, 4362231027342958),
  (-56841244971874154, 3893474613257501), (-53158755028125845, 3893474613257501),
  (-48869355635486693, 4362231027342958), (-45000000000005275, 3488588718781365),
  (-41130644364553941, 4362231027294106), (-36841244971987667, 3893474613091838),
  (-33158755028838502, 3893474612156241), (-28869355637522220, 4362231025972325),
  (-25000041259055167, 3488450258123362), (-21130961962162917, 4361849197447470),
  (-16842132016006658, 3892181373293681), (-13164333038404136, 3884825476394018),
  (-8885488201152921, 4350935951843145), (-5127080451864184, 3136422475372352),
  (-1889822365046136, 3629629629629629)]

/-- `S_6_1_base_even`, precomputed_ggq_rules_optimal.cpp L94-140. -/
def S_6_1_base_even : List (List (Int × Int)) := [
  S_6_1_base_even_row0, S_6_1_base_even_row1, S_6_1_base_even_row2]

/-- precomputed_ggq_rules_optimal.cpp L144-160, entry 0 of `S_6_1_base_odd`. -/
def S_6_1_base_odd_row0 : List (Int × Int) := [
  (926076787364690, 2305048699152139), (4284719776081420, 4070441617765419),
  (8301893554301429, 3671151647471710), (11864418084568064, 3860513146469309),
  (16139000245489232, 4352195321390286), (20001087149907883, 3484945801852715),
  (23869357046428150, 4362230076851826), (28158755522035257, 3893473849990720),
  (31841245050546591, 3893474498446596), (36130644392673314, 4362230993486436),
  (40000000003658042, 3488588706522378), (43869355635486693, 4362231027342958),
  (48158755028125845, 3893474613257501), (51841244971874154, 3893474613257501),
  (56130644364513306, 4362231027342958)]

/-- precomputed_ggq_rules_optimal.cpp L161-167, entry 1 of `S_6_1_base_odd`. -/
def S_6_1_base_odd_row1 : List (Int × Int) := [
  (0, 3488588718799080), (3869355635486690, 4362231027342958), (8158755028125850, 3893474613257501),
  (11841244971874149, 3893474613257501), (16130644364513309, 4362231027342958)]

/-- precomputed_ggq_rules_optimal.cpp L168-184, entry 2 of `S_6_1_base_odd`. -/
def S_6_1_base_odd_row2 : List (Int × Int) := [
  (-51130644364513306, 4362231027342958), (-46841244971874154, 3893474613257501),
  (-43158755028125854, 3893474613257499), (-38869355635486693, 4362231027342955),
  (-35000000049975219, 3488588551078113), (-31130644749227625, 4362230564804394),
  (-26841246046675308, 3893473044744377), (-23158761776286205, 3893464183818660),
  (-18869374920404342, 4362218019613904), (-15004028451009869, 3475146459826823),
  (-11161473022682864, 4325315154620461), (-6925086935571693, 3781951324919340),
  (-3624724648874144, 3220111278283742), (0, 3883591555379454)]

/-- `S_6_1_base_odd`, precomputed_ggq_rules_optimal.cpp L142-185. -/
def S_6_1_base_odd : List (List (Int × Int)) := [
  S_6_1_base_odd_row0, S_6_1_base_odd_row1, S_6_1_base_odd_row2]

/-- precomputed_ggq_rules_optimal.cpp L189-221, entry 0 of `S_8_2_base_even`. -/
def S_8_2_base_even_row0 : List (Int × Int) := [
  (611024308537384, 1537934901036661), (2964006017279071, 3015294505896247),
  (6260963761268005, 3369745803821638), (9382560974231145, 2868121535424703),
  (12384665248335113, 3325808856906486), (15955069246942119, 3623395764142126),
  (19289058929631492, 3016127898813490), (22363412094591148, 3346471788287507),
  (25945527044207086, 3631827258420067), (29286220281318167, 3020666115599898),
  (32362786485962380, 3347097365435258), (35945248524941395, 3632074004701199),
  (39286137521837809, 3020798476330806), (42362768264262511, 3347115601238639),
  (45945240414700574, 3632081190283482), (49286135112032969, 3020802330476152),
  (52362767733694797, 3347116132229754), (55945240178553508, 3632081399507586),
  (59286135041866403, 3020802442697791), (62362767718246203, 3347116147690682),
  (65945240171677594, 3632081405599583), (69286135039823353, 3020802445965358),
  (72362767717796385, 3347116148140860), (75945240171477390, 3632081405776965),
  (79286135039763872, 3020802446060500), (82362767717783285, 3347116148153967),
  (85945240171471564, 3632081405782129), (89286135039762140, 3020802446063270),
  (92362767717782912, 3347116148154349), (95945240171471386, 3632081405782280),
  (99286135039762086, 3020802446063351)]

/-- precomputed_ggq_rules_optimal.cpp L222-226, entry 1 of `S_8_2_base_even`. -/
def S_8_2_base_even_row1 : List (Int × Int) := [
  (2362767717782897, 3347116148154360), (5945240171471385, 3632081405782284),
  (9286135039762085, 3020802446063354)]

/-- precomputed_ggq_rules_optimal.cpp L227-261, entry 2 of `S_8_2_base_even`. -/
def S_8_2_base_even_row2 : List (Int × Int) := [
  (-107637232282217100, 3347116148154360), (-104054759828528610, 3632081405782283),
  (-100713864960237910, 3020802446063348), (-97637232282217123, 3347116148154341),
  (-94054759828528649, 3632081405782257), (-90713864960238019, 3020802446063204),
  (-87637232282217549, 3347116148153844), (-84054759828529679, 3632081405781557),
  (-80713864960240631, 3020802446059355), (-77637232282228865, 3347116148140563),
  (-74054759828556999, 3632081405762871), (-70713864960310326, 3020802445956685),
  (-67637232282530970, 3347116147786239), (-64054759829285909, 3632081405264343),
  (-60713864962169878, 3020802443217410), (-57637232290591073, 3347116138332830),
  (-54054759848733375, 3632081391963537), (-50713865011783045, 3020802370133180),
  (-47637232505635838, 3347115886114588), (-44054760367594392, 3632081037096244),
  (-40713866335467923, 3020800420239690), (-37637238243050648, 3347109156908804),
  (-34054774210849338, 3632071569224309), (-30713901650688613, 3020748399568131),
  (-27637391311494634, 3346929629201564), (-24055143530223008, 3631818991165765),
  (-20714843243387903, 3019362442576424), (-17641470492891904, 3342145889688399),
  (-14064982055714840, 3625099427400701), (-10739535299693239, 2983760359470398),
  (-7746648836764193, 3219925645864578), (-4312928503428806, 3467347931802373),
  (-1209668477634207, 2608319946643009)]

/-- `S_8_2_base_even`, precomputed_ggq_rules_optimal.cpp L187-262. -/
def S_8_2_base_even : List (List (Int × Int)) := [
  S_8_2_base_even_row0, S_8_2_base_even_row1, S_8_2_base_even_row2]

/-- precomputed_ggq_rules_optimal.cpp L266-298, entry 0 of `S_8_2_base_odd`. -/
def S_8_2_base_odd_row0 : List (Int × Int) := [
  (611024308537384, 1537934901036661), (2964006017279071, 3015294505896247),
  (6260963761268005, 3369745803821638), (9382560974231145, 2868121535424703),
  (12384665248335113, 3325808856906486), (15955069246942119, 3623395764142126),
  (19289058929631492, 3016127898813490), (22363412094591148, 3346471788287507),
  (25945527044207086, 3631827258420067), (29286220281318167, 3020666115599898),
  (32362786485962380, 3347097365435258), (35945248524941395, 3632074004701199),
  (39286137521837809, 3020798476330806), (42362768264262511, 3347115601238639),
  (45945240414700574, 3632081190283482), (49286135112032969, 3020802330476152),
  (52362767733694797, 3347116132229754), (55945240178553508, 3632081399507586),
  (59286135041866403, 3020802442697791), (62362767718246203, 3347116147690682),
  (65945240171677594, 3632081405599583), (69286135039823353, 3020802445965358),
  (72362767717796385, 3347116148140860), (75945240171477390, 3632081405776965),
  (79286135039763872, 3020802446060500), (82362767717783285, 3347116148153967),
  (85945240171471564, 3632081405782129), (89286135039762140, 3020802446063270),
  (92362767717782912, 3347116148154349), (95945240171471386, 3632081405782280),
  (99286135039762086, 3020802446063351)]

/-- precomputed_ggq_rules_optimal.cpp L299-303, entry 1 of `S_8_2_base_odd`. -/
def S_8_2_base_odd_row1 : List (Int × Int) := [
  (2362767717782897, 3347116148154360), (5945240171471385, 3632081405782284),
  (9286135039762085, 3020802446063354)]

/-- precomputed_ggq_rules_optimal.cpp L304-338, entry 2 of `S_8_2_base_odd`. -/
def S_8_2_base_odd_row2 : List (Int × Int) := [
  (-105713864960237910, 3020802446063353), (-102637232282217100, 3347116148154357),
  (-99054759828528631, 3632081405782279), (-95713864960237931, 3020802446063325),
  (-92637232282217194, 3347116148154261), (-89054759828528826, 3632081405782143),
  (-85713864960238446, 3020802446062580), (-82637232282219379, 3347116148151691),
  (-79054759828534102, 3632081405778528), (-75713864960251928, 3020802446042715),
  (-72637232282277830, 3347116148083136), (-69054759828675136, 3632081405682072),
  (-65713864960611712, 3020802445512717), (-62637232283837311, 3347116146254078),
  (-59054759832437859, 3632081403108615), (-55713864970210931, 3020802431372286),
  (-52637232325444447, 3347116097454571), (-49054759932827751, 3632081334448433),
  (-45713865226319363, 3020802054103793), (-42637233435528232, 3347114795477382),
  (-39054762611242956, 3632079502586635), (-35713872059294926, 3020791988631352),
  (-32637263052471321, 3347080058861300), (-29054834070961526, 3632030629235071),
  (-25714054340712579, 3020523513891152), (-22638053061182947, 3346153506415598),
  (-19056740075607119, 3630727380721407), (-15718901133065932, 3013412746917601),
  (-12659002813781068, 3321603344077276), (-9107161958682878, 3596538601068878),
  (-5838002866484455, 2857327302619896), (-3110865988395489, 2849619563985983), (0, 3259268458072143)]

/-- `S_8_2_base_odd`, precomputed_ggq_rules_optimal.cpp L264-339. -/
def S_8_2_base_odd : List (List (Int × Int)) := [
  S_8_2_base_odd_row0, S_8_2_base_odd_row1, S_8_2_base_odd_row2]

/-- precomputed_ggq_rules_optimal.cpp L358-362, entry 0 of `S_4_0_precomputed`. -/
def S_4_0_precomputed_row0 : List (Int × Int) := [
  (1127016653792583, 2777777777777778), (5000000000000000, 4444444444444444),
  (8872983346207417, 2777777777777778)]

/-- precomputed_ggq_rules_optimal.cpp L363-369, entry 1 of `S_4_0_precomputed`. -/
def S_4_0_precomputed_row1 : List (Int × Int) := [
  (775255128608411, 1882015313502336), (3224744871391589, 2562429130942108),
  (5000000000000000, 1111111111111111), (6775255128608411, 2562429130942108),
  (9224744871391589, 1882015313502336)]

/-- precomputed_ggq_rules_optimal.cpp L370-378, entry 2 of `S_4_0_precomputed`. -/
def S_4_0_precomputed_row2 : List (Int × Int) := [
  (516836752405607, 1254676875668224), (2149829914261059, 1708286087294739),
  (3547033685486441, 1218323586744639), (5000000000000000, 1637426900584795),
  (6452966314513557, 1218323586744639), (7850170085738940, 1708286087294739),
  (9483163247594392, 1254676875668224)]

/-- precomputed_ggq_rules_optimal.cpp L379-389, entry 3 of `S_4_0_precomputed`. -/
def S_4_0_precomputed_row3 : List (Int × Int) := [
  (387627564304205, 941007656751168), (1612372435695794, 1281214565471054),
  (2740454702086354, 1124770808630382), (4059545297913646, 1358889322088573),
  (5000000000000000, 588235294117647), (5940454702086354, 1358889322088573),
  (7259545297913645, 1124770808630382), (8387627564304205, 1281214565471054),
  (9612372435695794, 941007656751168)]

/-- precomputed_ggq_rules_optimal.cpp L390-402, entry 4 of `S_4_0_precomputed`. -/
def S_4_0_precomputed_row4 : List (Int × Int) := [
  (310102051443364, 752806125400935), (1289897948556636, 1024971652376843),
  (2192363761669083, 899816646904305), (3247636238330917, 1087111457670858),
  (4125061578521488, 742801625154566), (5000000000000000, 984984984984985),
  (5874938421478512, 742801625154566), (6752363761669083, 1087111457670858),
  (7807636238330917, 899816646904305), (8710102051443365, 1024971652376843), (9689897948556636, 752806125400935)]

/-- precomputed_ggq_rules_optimal.cpp L403-417, entry 5 of `S_4_0_precomputed`. -/
def S_4_0_precomputed_row5 : List (Int × Int) := [
  (258418376202804, 627338437834112), (1074914957130530, 854143043647369), (1826969801390902, 749847205753588),
  (2706363531942431, 905926214725715), (3490113384395020, 758812512377092),
  (4371955581122221, 907524055920261), (5000000000000000, 392817059483726),
  (5628044418877778, 907524055920261), (6509886615604979, 758812512377092),
  (7293636468057568, 905926214725715), (8173030198609097, 749847205753588),
  (8925085042869469, 854143043647369), (9741581623797196, 627338437834112)]

/-- precomputed_ggq_rules_optimal.cpp L418-434, entry 6 of `S_4_0_precomputed`. -/
def S_4_0_precomputed_row6 : List (Int × Int) := [
  (221501465316689, 537718661000667), (921355677540454, 732122608840602), (1565974115477916, 642726176360218),
  (2319740170236369, 776508184050613), (2991525758052874, 650410724894650),
  (3747390498104761, 777877762217366), (4374977358217148, 530829008417880),
  (5000000000000000, 703613748436005), (5625022641782852, 530829008417880),
  (6252609501895238, 777877762217366), (7008474241947126, 650410724894650),
  (7680259829763629, 776508184050613), (8434025884522083, 642726176360218),
  (9078644322459546, 732122608840602), (9778498534683311, 537718661000667)]

/-- precomputed_ggq_rules_optimal.cpp L435-453, entry 7 of `S_4_0_precomputed`. -/
def S_4_0_precomputed_row7 : List (Int × Int) := [
  (193813782152103, 470503828375584), (806186217847897, 640607282735527), (1370227351043177, 562385404315191),
  (2029772648956823, 679444661044286), (2617585038296265, 569109384282819),
  (3278966685841666, 680643041940196), (3867506765288142, 569314351459476),
  (4528942938853869, 680678354339123), (5000000000000000, 294627383015598),
  (5471057061146131, 680678354339123), (6132493234711858, 569314351459476),
  (6721033314158333, 680643041940196), (7382414961703735, 569109384282819),
  (7970227351043176, 679444661044286), (8629772648956823, 562385404315191),
  (9193813782152103, 640607282735527), (9806186217847898, 470503828375584)]

/-- precomputed_ggq_rules_optimal.cpp L454-474, entry 8 of `S_4_0_precomputed`. -/
def S_4_0_precomputed_row8 : List (Int × Int) := [
  (172278917468536, 418225625222741), (716609971420353, 569428695764913), (1217979867593935, 499898137169059),
  (1804242354628287, 603950809817143), (2326742256263347, 505875008251394),
  (2914637054081481, 605016037280174), (3437783791367238, 506057201297312),
  (4025727056758995, 605047426079220), (4513869753015432, 412872883076714),
  (5000000000000000, 547256352082658), (5486130246984567, 412872883076714),
  (5974272943241005, 605047426079220), (6562216208632762, 506057201297312),
  (7085362945918519, 605016037280174), (7673257743736653, 505875008251394),
  (8195757645371712, 603950809817143), (8782020132406064, 499898137169059),
  (9283390028579647, 569428695764913), (9827721082531463, 418225625222741)]

/-- precomputed_ggq_rules_optimal.cpp L475-497, entry 9 of `S_4_0_precomputed`. -/
def S_4_0_precomputed_row9 : List (Int × Int) := [
  (155051025721682, 376403062700467), (644948974278318, 512485826188422), (1096181880834542, 449908323452153),
  (1623818119165459, 543555728835429), (2094068030637012, 455287507426255),
  (2623173348673333, 544514433552157), (3094005412230514, 455451481167581),
  (3623154351083095, 544542683471298), (4094003568574774, 455456313123146),
  (4623153791831318, 544543515095483), (5000000000000000, 235702249975221),
  (5376846208168683, 544543515095483), (5905996431425227, 455456313123146),
  (6376845648916905, 544542683471298), (6905994587769486, 455451481167581),
  (7376826651326667, 544514433552157), (7905931969362988, 455287507426255),
  (8376181880834542, 543555728835429), (8903818119165460, 449908323452153),
  (9355051025721682, 512485826188422), (9844948974278318, 376403062700467)]

/-- precomputed_ggq_rules_optimal.cpp L498-522, entry 10 of `S_4_0_precomputed`. -/
def S_4_0_precomputed_row10 : List (Int × Int) := [
  (140955477928802, 342184602454970), (586317249343925, 465896205625838), (996528982576856, 409007566774684),
  (1476198290150417, 494141571668572), (1903698209670011, 413897734023868),
  (2384703044248485, 495013121411051), (2812732192936831, 414046801061437),
  (3293776682802814, 495038803155726), (3721821425977067, 414051193748315),
  (4202867083483016, 495039559177712), (4602257033904827, 337805227694039),
  (5000000000000000, 447755226407576), (5397742966095174, 337805227694039),
  (5797132916516985, 495039559177712), (6278178574022933, 414051193748315),
  (6706223317197186, 495038803155726), (7187267807063169, 414046801061437),
  (7615296955751515, 495013121411051), (8096301790329991, 413897734023868),
  (8523801709849584, 494141571668572), (9003471017423145, 409007566774684),
  (9413682750656075, 465896205625838), (9859044522071198, 342184602454970)]

/-- precomputed_ggq_rules_optimal.cpp L523-549, entry 11 of `S_4_0_precomputed`. -/
def S_4_0_precomputed_row11 : List (Int × Int) := [
  (129209188101402, 313669218917056), (537457478565265, 427071521823685), (913484900695451, 374923602876794),
  (1353181765971215, 452963107362857), (1745056692197510, 379406256188546),
  (2185977790561111, 453762027960130), (2578337843525428, 379542900972984),
  (3019295292569246, 453785569559415), (3411669640478978, 379546927602622),
  (3852628159859431, 453786262579569), (4245002928585266, 379547046139159),
  (4685961479473724, 453786282980195), (5000000000000000, 196418550073976),
  (5314038520526275, 453786282980195), (5754997071414734, 379547046139159),
  (6147371840140569, 453786262579569), (6588330359521022, 379546927602622),
  (6980704707430753, 453785569559415), (7421662156474571, 379542900972984),
  (7814022209438889, 453762027960130), (8254943307802490, 379406256188546),
  (8646818234028785, 452963107362857), (9086515099304548, 374923602876794),
  (9462542521434735, 427071521823685), (9870790811898598, 313669218917056)]

/-- precomputed_ggq_rules_optimal.cpp L550-578, entry 12 of `S_4_0_precomputed`. -/
def S_4_0_precomputed_row12 : List (Int × Int) := [
  (119270019785909, 289540817461898), (496114595598706, 394219866298786), (843216831411186, 346083325732425),
  (1249090860896507, 418119791411869), (1610821562028471, 350221159558658),
  (2017825652825641, 418857256578582), (2380004163254242, 350347293205831),
  (2787041808525458, 418878987285614), (3149233514288288, 350351010094728),
  (3556272147562552, 418879626996525), (3918464241771015, 350351119513070),
  (4325502904129592, 418879645827872), (4663448258542691, 285835196189740),
  (5000000000000000, 378869807688805), (5336551741457309, 285835196189740),
  (5674497095870409, 418879645827872), (6081535758228985, 350351119513070),
  (6443727852437449, 418879626996525), (6850766485711712, 350351010094728),
  (7212958191474542, 418878987285614), (7619995836745759, 350347293205831),
  (7982174347174359, 418857256578582), (8389178437971531, 350221159558658),
  (8750909139103494, 418119791411869), (9156783168588816, 346083325732425),
  (9503885404401294, 394219866298786), (9880729980214090, 289540817461898)]

/-- precomputed_ggq_rules_optimal.cpp L579-609, entry 13 of `S_4_0_precomputed`. -/
def S_4_0_precomputed_row13 : List (Int × Int) := [
  (110750732658344, 268859330500334), (460677838770227, 366061304420301), (782987057738958, 321363088180109),
  (1159870085118185, 388254092025306), (1495762879026437, 325205362447325),
  (1873695249052381, 388938881108683), (2210003865878938, 325322486548272),
  (2587967393630782, 388959059622356), (2924288263267695, 325325937945104),
  (3302252708450941, 388959653639631), (3638573938787371, 325326039547850),
  (4016538410977478, 388959671125882), (4352859651931920, 325326042538759),
  (4730824124917034, 388959671640629), (5000000000000000, 168358757418919),
  (5269175875082965, 388959671640629), (5647140348068080, 325326042538759),
  (5983461589022522, 388959671125882), (6361426061212628, 325326039547850),
  (6697747291549059, 388959653639631), (7075711736732304, 325325937945104),
  (7412032606369217, 388959059622356), (7789996134121061, 325322486548272),
  (8126304750947618, 388938881108683), (8504237120973563, 325205362447325),
  (8840129914881816, 388254092025306), (9217012942261041, 321363088180109),
  (9539322161229773, 366061304420301), (9889249267341654, 268859330500334)]

/-- precomputed_ggq_rules_optimal.cpp L610-642, entry 14 of `S_4_0_precomputed`. -/
def S_4_0_precomputed_row14 : List (Int × Int) := [
  (103367350481121, 250935375133645), (429965982852212, 341657217458948), (730787920556361, 299938882301435),
  (1082545412776972, 362370485890286), (1396045353758008, 303525004950837),
  (1748782232448889, 363009622368104), (2062670274820343, 303634320778387),
  (2415436234055397, 363028455647532), (2729335712383182, 303637542082097),
  (3082102527887545, 363029010063655), (3396002342868213, 303637636911327),
  (3748769183578979, 363029026384156), (4062669008469791, 303637639702842),
  (4415435849922565, 363029026864587), (4708321824046982, 247723836787720),
  (5000000000000000, 328353833348884), (5291678175953018, 247723836787720),
  (5584564150077435, 363029026864587), (5937330991530207, 303637639702842),
  (6251230816421021, 363029026384156), (6603997657131786, 303637636911327),
  (6917897472112455, 363029010063655), (7270664287616817, 303637542082097),
  (7584563765944602, 363028455647532), (7937329725179657, 303634320778387),
  (8251217767551111, 363009622368104), (8603954646241992, 303525004950837),
  (8917454587223028, 362370485890286), (9269212079443639, 299938882301435),
  (9570034017147788, 341657217458948), (9896632649518878, 250935375133645)]

/-- precomputed_ggq_rules_optimal.cpp L643-677, entry 15 of `S_4_0_precomputed`. -/
def S_4_0_precomputed_row15 : List (Int × Int) := [
  (96906891076051, 235251914187792), (403093108923949, 320303641367764), (685113675521588, 281192702157595),
  (1014886324478411, 339722330522143), (1308792519148133, 284554692141409),
  (1639483342920833, 340321520970098), (1933753382644071, 284657175729738),
  (2264471469426935, 340339177169561), (2558752230359234, 284660195701966),
  (2889471119894573, 340339696934677), (3183752196438950, 284660284604369),
  (3514471109605293, 340339712235146), (3808752195440430, 284660287221414),
  (4139471109302405, 340339712685550), (4433752195411036, 284660287298453),
  (4764471109293489, 340339712698809), (5000000000000000, 147313912747031),
  (5235528890706511, 340339712698809), (5566247804588964, 284660287298453),
  (5860528890697595, 340339712685550), (6191247804559570, 284660287221414),
  (6485528890394707, 340339712235146), (6816247803561050, 284660284604369),
  (7110528880105427, 340339696934677), (7441247769640766, 284660195701966),
  (7735528530573065, 340339177169561), (8066246617355929, 284657175729738),
  (8360516657079167, 340321520970098), (8691207480851868, 284554692141409),
  (8985113675521589, 339722330522143), (9314886324478412, 281192702157595),
  (9596906891076051, 320303641367764), (9903093108923948, 235251914187792)]

/-- precomputed_ggq_rules_optimal.cpp L678-714, entry 16 of `S_4_0_precomputed`. -/
def S_4_0_precomputed_row16 : List (Int × Int) := [
  (91206485718637, 221413566294392), (379381749575481, 301462250699072), (644812871079142, 264651954971855),
  (955187128920858, 319738664020841), (1231804723904125, 267816180838974), (1543043146278431, 320302607971857),
  (1820003183665008, 267912635980930), (2131267265342997, 320319225571352),
  (2408237393279279, 267915478307733), (2719502230489010, 320319714762049),
  (2996472655471953, 267915561980583), (3307737514922629, 320319729162491),
  (3584707948649816, 267915564443684), (3895972808755205, 320319729586400),
  (4172943242739798, 267915564516191), (4484208102864460, 320319729598879),
  (4742636903570259, 218579855991501), (5000000000000000, 289723970602440),
  (5257363096429740, 218579855991501), (5515791897135540, 320319729598879),
  (5827056757260202, 267915564516191), (6104027191244795, 320319729586400),
  (6415292051350183, 267915564443684), (6692262485077372, 320319729162491),
  (7003527344528047, 267915561980583), (7280497769510990, 320319714762049),
  (7591762606720721, 267915478307733), (7868732734657002, 320319225571352),
  (8179996816334991, 267912635980930), (8456956853721569, 320302607971857),
  (8768195276095876, 267816180838974), (9044812871079142, 319738664020841),
  (9355187128920858, 264651954971855), (9620618250424519, 301462250699072), (9908793514281363, 221413566294392)]

/-- precomputed_ggq_rules_optimal.cpp L715-753, entry 17 of `S_4_0_precomputed`. -/
def S_4_0_precomputed_row17 : List (Int × Int) := [
  (86139458734268, 209112812611371), (358304985710177, 284714347882456), (608989933796968, 249949068584529),
  (902121177314144, 301975404908572), (1163371128131673, 252937504125697), (1457318527040740, 302508018640087),
  (1718891895683619, 253028600648656), (2012863528379497, 302523713039610),
  (2274446426985985, 253031285068414), (2568418773239621, 302524175053046),
  (2830001952390178, 253031364092773), (3123974319649149, 302524188653463),
  (3385557507058159, 253031366419035), (3679529874935471, 302524189053822),
  (3941113062587587, 253031366487513), (4235085430483101, 302524189065608),
  (4496668618142374, 253031366489529), (4790640986038424, 302524189065955),
  (5000000000000000, 130945700219727), (5209359013961576, 302524189065955),
  (5503331381857626, 253031366489529), (5764914569516898, 302524189065608),
  (6058886937412412, 253031366487513), (6320470125064529, 302524189053822),
  (6614442492941840, 253031366419035), (6876025680350850, 302524188653463),
  (7169998047609821, 253031364092773), (7431581226760379, 302524175053046),
  (7725553573014015, 253031285068414), (7987136471620502, 302523713039610),
  (8281108104316380, 253028600648656), (8542681472959259, 302508018640087),
  (8836628871868326, 252937504125697), (9097878822685855, 301975404908572),
  (9391010066203032, 249949068584529), (9641695014289823, 284714347882456), (9913860541265731, 209112812611371)]

/-- precomputed_ggq_rules_optimal.cpp L754-794, entry 18 of `S_4_0_precomputed`. -/
def S_4_0_precomputed_row18 : List (Int × Int) := [
  (81605803011412, 198106875105509), (339446828567536, 269729382204432), (576937832018180, 236793854448501),
  (854641115350241, 286081962544963), (1102141068756322, 239625003908555), (1380617551933333, 286586543974819),
  (1628423901173955, 239711305877674), (1906923342675313, 286601412353315),
  (2154738720302512, 239713849012182), (2433238837805956, 286601850050254),
  (2681054481211747, 239713923877364), (2959554618614983, 286601862934860),
  (3207370269844572, 239713926081191), (3485870407833604, 286601863314147),
  (3733686059293504, 239713926146065), (4012186197299780, 286601863325313),
  (4260001848766460, 239713926147975), (4538501986773243, 286601863325641),
  (4769727755826005, 195571450097720), (5000000000000000, 259226710539038),
  (5230272244173994, 195571450097720), (5461498013226757, 286601863325641),
  (5739998151233540, 239713926147975), (5987813802700219, 286601863325313),
  (6266313940706496, 239713926146065), (6514129592166396, 286601863314147),
  (6792629730155427, 239713926081191), (7040445381385017, 286601862934860),
  (7318945518788252, 239713923877364), (7566761162194043, 286601850050254),
  (7845261279697487, 239713849012182), (8093076657324686, 286601412353315),
  (8371576098826045, 239711305877674), (8619382448066666, 286586543974819),
  (8897858931243677, 239625003908555), (9145358884649758, 286081962544963),
  (9423062167981819, 236793854448501), (9660553171432463, 269729382204432), (9918394196988587, 198106875105509)]

/-- precomputed_ggq_rules_optimal.cpp L795-837, entry 19 of `S_4_0_precomputed`. -/
def S_4_0_precomputed_row19 : List (Int × Int) := [
  (77525512860841, 188201531350234), (322474487139159, 256242913094211), (548090940417271, 224954161726076),
  (811909059582729, 271777864417715), (1047034015318506, 227643753713128), (1311586674336666, 272257216776078),
  (1547002706115257, 227725740583790), (1811577175541548, 272271341735649),
  (2047001784287387, 227728156561573), (2311576895915659, 272271757547741),
  (2547001757151160, 227728227683495), (2811576887684235, 272271769788117),
  (3047001756352344, 227728229777131), (3311576887441924, 272271770148440),
  (3547001756328829, 227728229838762), (3811576887434791, 272271770159047),
  (4047001756328137, 227728229840576), (4311576887434582, 272271770159359),
  (4547001756328117, 227728229840630), (4811576887434575, 272271770159368),
  (5000000000000000, 117851130197758), (5188423112565425, 272271770159368),
  (5452998243671884, 227728229840630), (5688423112565418, 272271770159359),
  (5952998243671863, 227728229840576), (6188423112565209, 272271770159047),
  (6452998243671172, 227728229838762), (6688423112558076, 272271770148440),
  (6952998243647657, 227728229777131), (7188423112315766, 272271769788117),
  (7452998242848841, 227728227683495), (7688423104084342, 272271757547741),
  (7952998215712613, 227728156561573), (8188422824458453, 272271341735649),
  (8452997293884744, 227725740583790), (8688413325663333, 272257216776078),
  (8952965984681495, 227643753713128), (9188090940417271, 271777864417715),
  (9451909059582729, 224954161726076), (9677525512860842, 256242913094211), (9922474487139159, 188201531350234)]

/-- precomputed_ggq_rules_optimal.cpp L838-882, entry 20 of `S_4_0_precomputed`. -/
def S_4_0_precomputed_row20 : List (Int × Int) := [
  (73833821772230, 179239553666889), (307118559180151, 244040869613534), (521991371825972, 214242058786739),
  (773246723412123, 258836061350204), (997175252684291, 216803574964883), (1249130166034920, 259292587405789),
  (1473335910585959, 216881657698848), (1725311595753855, 259306039748237),
  (1949525508845130, 216883958630070), (2201501805633961, 259306435759754),
  (2425715959191581, 216884026365234), (2677692273984985, 259306447417254),
  (2901906434621280, 216884028359173), (3153882749944689, 259306447760419),
  (3378096910789360, 216884028417869), (3630073226128372, 259306447770521),
  (3854287386979178, 216884028419596), (4106263702318649, 259306447770818),
  (4330477863169634, 216884028419647), (4582454178509119, 259306447770827),
  (4791658445747338, 176945597707463), (5000000000000000, 234538452392463),
  (5208341554252661, 176945597707463), (5417545821490880, 259306447770827),
  (5669522136830365, 216884028419647), (5893736297681351, 259306447770818),
  (6145712613020822, 216884028419596), (6369926773871627, 259306447770521),
  (6621903089210639, 216884028417869), (6846117250055310, 259306447760419),
  (7098093565378719, 216884028359173), (7322307726015015, 259306447417254),
  (7574284040808419, 216884026365234), (7798498194366039, 259306435759754),
  (8050474491154869, 216883958630070), (8274688404246145, 259306039748237),
  (8526664089414041, 216881657698848), (8750869833965079, 259292587405789),
  (9002824747315709, 216803574964883), (9226753276587876, 258836061350204),
  (9478008628174027, 214242058786739), (9692881440819848, 244040869613534), (9926166178227770, 179239553666889)]

/-- precomputed_ggq_rules_optimal.cpp L883-929, entry 21 of `S_4_0_precomputed`. -/
def S_4_0_precomputed_row21 : List (Int × Int) := [
  (70477738964401, 171092301227485), (293158624671963, 232948102812919), (498264491288428, 204503783387342),
  (738099145075208, 247070785834286), (951849104835006, 206948867011934), (1192351522124242, 247506560705526),
  (1406366096468415, 207023400530718), (1646888341401407, 247519401577863),
  (1860910712988534, 207025596874157), (2101433541741508, 247519779588856),
  (2315456142864691, 207025661530450), (2555978988803850, 247519790716470),
  (2770001596683949, 207025663433756), (3010524443129022, 247519791044036),
  (3224547051208026, 207025663489784), (3465069897667992, 247519791053679),
  (3679092505752852, 207025663491433), (3919615352213256, 247519791053963),
  (4133637960298288, 207025663491482), (4374160806758705, 247519791053971),
  (4588183414843742, 207025663491483), (4828706261304159, 247519791053972),
  (5000000000000000, 107137391088871), (5171293738695841, 247519791053972),
  (5411816585156258, 207025663491483), (5625839193241295, 247519791053971),
  (5866362039701712, 207025663491482), (6080384647786744, 247519791053963),
  (6320907494247149, 207025663491433), (6534930102332008, 247519791053679),
  (6775452948791975, 207025663489784), (6989475556870979, 247519791044036),
  (7229998403316051, 207025663433756), (7444021011196151, 247519790716470),
  (7684543857135310, 207025661530450), (7898566458258492, 247519779588856),
  (8139089287011466, 207025596874157), (8353111658598593, 247519401577863),
  (8593633903531586, 207023400530718), (8807648477875758, 247506560705526),
  (9048150895164995, 206948867011934), (9261900854924792, 247070785834286),
  (9501735508711572, 204503783387342), (9706841375328038, 232948102812919), (9929522261035599, 171092301227485)]

/-- precomputed_ggq_rules_optimal.cpp L930-978, entry 22 of `S_4_0_precomputed`. -/
def S_4_0_precomputed_row22 : List (Int × Int) := [
  (67413489444210, 163653505521942), (280412597512312, 222819924429749), (476600817754149, 195612314544414),
  (706007877898025, 236328577754534), (910464361146527, 197951090185328), (1140510151597101, 236745405892242),
  (1345219744448050, 198022383116339), (1575284500470911, 236757688465782),
  (1780001551554249, 198024483966585), (2010066866013616, 236758050041514),
  (2214784136653182, 198024545811735), (2444849467551508, 236758060685319),
  (2649566744654212, 198024547632288), (2879632076036456, 236758060998644),
  (3084349353329416, 198024547685880), (3314414684725905, 236758061007867),
  (3519131962024467, 198024547687458), (3749197293421375, 236758061008138),
  (3953914570720101, 198024547687504), (4183979902117022, 236758061008146),
  (4388697179415753, 198024547687505), (4618762510812673, 236758061008147),
  (4809775102638874, 161559023993770), (5000000000000000, 214143804358336),
  (5190224897361125, 161559023993770), (5381237489187326, 236758061008147),
  (5611302820584247, 198024547687505), (5816020097882978, 236758061008146),
  (6046085429279898, 198024547687504), (6250802706578624, 236758061008138),
  (6480868037975533, 198024547687458), (6685585315274094, 236758061007867),
  (6915650646670584, 198024547685880), (7120367923963543, 236758060998644),
  (7350433255345787, 198024547632288), (7555150532448491, 236758060685319),
  (7785215863346818, 198024545811735), (7989933133986383, 236758050041514),
  (8219998448445750, 198024483966585), (8424715499529090, 236757688465782),
  (8654780255551952, 198022383116339), (8859489848402898, 236745405892242),
  (9089535638853473, 197951090185328), (9293992122101974, 236328577754534),
  (9523399182245851, 195612314544414), (9719587402487687, 222819924429749), (9932586510555790, 163653505521942)]

/-- precomputed_ggq_rules_optimal.cpp L979-1029, entry 23 of `S_4_0_precomputed`. -/
def S_4_0_precomputed_row23 : List (Int × Int) := [
  (64604594050701, 156834609458528), (268728739282632, 213535760911842), (456742450347726, 187461801438397),
  (676590882985608, 226481553681429), (872528346098755, 189703128094273), (1092988895280555, 226881013980065),
  (1289168921762714, 189771450486492), (1509647646284623, 226892784779708),
  (1705834820239489, 189773463801311), (1926314079929715, 226893131289784),
  (2122501464292633, 189773523069579), (2342980739736862, 226893141490098),
  (2539168130293620, 189773524814276), (2759647406201603, 226893141790367),
  (2955834796940691, 189773524865635), (3176314072862326, 226893141799206),
  (3372501463606781, 189773524867147), (3592980739528818, 226893141799466),
  (3789168130273430, 189773524867191), (4009647406195479, 226893141799474),
  (4205834796940096, 189773524867193), (4426314072862145, 226893141799474),
  (4622501463606763, 189773524867193), (4842980739528812, 226893141799474), (5000000000000000, 98209275164798),
  (5157019260471187, 226893141799474), (5377498536393237, 189773524867193),
  (5573685927137855, 226893141799474), (5794165203059903, 189773524867193),
  (5990352593804520, 226893141799474), (6210831869726570, 189773524867191),
  (6407019260471182, 226893141799466), (6627498536393219, 189773524867147),
  (6823685927137674, 226893141799206), (7044165203059309, 189773524865635),
  (7240352593798396, 226893141790367), (7460831869706379, 189773524814276),
  (7657019260263138, 226893141490098), (7877498535707367, 189773523069579),
  (8073685920070284, 226893131289784), (8294165179760511, 189773463801311),
  (8490352353715377, 226892784779708), (8710831078237287, 189771450486492),
  (8907011104719444, 226881013980065), (9127471653901245, 189703128094273),
  (9323409117014392, 226481553681429), (9543257549652273, 187461801438397),
  (9731271260717367, 213535760911842), (9935395405949299, 156834609458528)]

/-- `S_4_0_precomputed`, precomputed_ggq_rules_optimal.cpp L356-1030. -/
def S_4_0_precomputed : List (List (Int × Int)) := [
  S_4_0_precomputed_row0, S_4_0_precomputed_row1, S_4_0_precomputed_row2, S_4_0_precomputed_row3,
  S_4_0_precomputed_row4, S_4_0_precomputed_row5, S_4_0_precomputed_row6, S_4_0_precomputed_row7,
  S_4_0_precomputed_row8, S_4_0_precomputed_row9, S_4_0_precomputed_row10, S_4_0_precomputed_row11,
  S_4_0_precomputed_row12, S_4_0_precomputed_row13, S_4_0_precomputed_row14, S_4_0_precomputed_row15,
  S_4_0_precomputed_row16, S_4_0_precomputed_row17, S_4_0_precomputed_row18, S_4_0_precomputed_row19,
  S_4_0_precomputed_row20, S_4_0_precomputed_row21, S_4_0_precomputed_row22, S_4_0_precomputed_row23]

/-- precomputed_ggq_rules_optimal.cpp L1035-1040, entry 0 of `S_6_1_precomputed`. -/
def S_6_1_precomputed_row0 : List (Int × Int) := [
  (694318442029737, 1739274225687269), (3300094782075719, 3260725774312730),
  (6699905217924281, 3260725774312730), (9305681557970263, 1739274225687269)]

/-- precomputed_ggq_rules_optimal.cpp L1041-1048, entry 1 of `S_6_1_precomputed`. -/
def S_6_1_precomputed_row1 : List (Int × Int) := [
  (462127372182612, 1150241814446771), (2137978506000211, 2030726134378335),
  (4139622006490060, 1819032051174894), (5860377993509940, 1819032051174894),
  (7862021493999789, 2030726134378335), (9537872627817388, 1150241814446771)]

/-- precomputed_ggq_rules_optimal.cpp L1049-1059, entry 2 of `S_6_1_precomputed`. -/
def S_6_1_precomputed_row2 : List (Int × Int) := [
  (306423766079998, 762667453743213), (1417348466515933, 1345679076478470),
  (2739711272863798, 1186184408026074), (3797791396339815, 1060634927755797),
  (5000000000000000, 1289668267992890), (6202208603660184, 1060634927755797),
  (7260288727136200, 1186184408026074), (8582651533484067, 1345679076478470),
  (9693576233920000, 762667453743213)]

/-- precomputed_ggq_rules_optimal.cpp L1060-1072, entry 3 of `S_6_1_precomputed`. -/
def S_6_1_precomputed_row3 : List (Int × Int) := [
  (231519196841173, 576262174788035), (1071179944020355, 1017610404441355),
  (2075473388575357, 917787911867928), (2966104521142016, 965128286617327),
  (4034750061372308, 1088048830347572), (5000000000000000, 870324783875567),
  (5965249938627691, 1088048830347572), (7033895478857983, 965128286617327),
  (7924526611424643, 917787911867928), (8928820055979645, 1017610404441355), (9768480803158828, 576262174788035)]

/-- precomputed_ggq_rules_optimal.cpp L1073-1088, entry 4 of `S_6_1_precomputed`. -/
def S_6_1_precomputed_row4 : List (Int × Int) := [
  (185201737657345, 460975612828112), (856878416976785, 814021014373373), (1660208077562081, 733974530795521),
  (2371780935837472, 770397831180382), (3224625190026733, 868222322094081),
  (3974843745994350, 626482762802605), (4622035526990773, 725925925925926),
  (5377964473009227, 725925925925926), (6025156254005651, 626482762802605),
  (6775374809973268, 868222322094081), (7628219064162529, 770397831180382),
  (8339791922437920, 733974530795521), (9143121583023215, 814021014373373), (9814798262342657, 460975612828112)]

/-- precomputed_ggq_rules_optimal.cpp L1089-1106, entry 5 of `S_6_1_precomputed`. -/
def S_6_1_precomputed_row5 : List (Int × Int) := [
  (154346131227448, 384174783192023), (714119962680237, 678406936294236), (1383648925716905, 611858607911952),
  (1977403014094677, 643418857744885), (2689833374248205, 725365886898381),
  (3333514524373840, 580824298260580), (3978226169709807, 727038340500323),
  (4693125907226672, 648912289197620), (5306874092773328, 648912289197620),
  (6021773830290192, 727038340500323), (6666485475626160, 580824298260580),
  (7310166625751795, 725365886898381), (8022596985905321, 643418857744885),
  (8616351074283095, 611858607911952), (9285880037319763, 678406936294236), (9845653868772551, 384174783192023)]

/-- precomputed_ggq_rules_optimal.cpp L1107-1127, entry 6 of `S_6_1_precomputed`. -/
def S_6_1_precomputed_row6 : List (Int × Int) := [
  (132296677518221, 329292655293495), (612102794400397, 581491628094296), (1185984713378604, 524450115162926),
  (1694916352449028, 551501081725067), (2305569993507098, 621741200220251),
  (2856723453320721, 495927100144926), (3405503853902448, 617902164945780),
  (4010701866346901, 540278760702763), (4482182193017979, 460015896897677),
  (5000000000000000, 554798793625636), (5517817806982021, 460015896897677),
  (5989298133653098, 540278760702763), (6594496146097552, 617902164945780),
  (7143276546679279, 495927100144926), (7694430006492901, 621741200220251),
  (8305083647550970, 551501081725067), (8814015286621396, 524450115162926),
  (9387897205599604, 581491628094296), (9867703322481778, 329292655293495)]

/-- precomputed_ggq_rules_optimal.cpp L1128-1150, entry 7 of `S_6_1_precomputed`. -/
def S_6_1_precomputed_row7 : List (Int × Int) := [
  (115759598420586, 288131087394017), (535589972010178, 508805202220677), (1037736694287679, 458893955933964),
  (1483052260571008, 482564143308664), (2017375030686154, 544024415173786),
  (2500135893738485, 435618225231589), (2983669630803519, 545278759606478),
  (3519844440254407, 486684231248840), (3980155631318324, 486684312305825),
  (4516330549084164, 545278874185805), (5000000000000000, 436073586780709),
  (5483669450915836, 545278874185805), (6019844368681676, 486684312305825),
  (6480155559745593, 486684231248840), (7016330369196482, 545278759606478),
  (7499864106261515, 435618225231589), (7982624969313846, 544024415173786),
  (8516947739428992, 482564143308664), (8962263305712321, 458893955933964),
  (9464410027989822, 508805202220677), (9884240401579414, 288131087394017)]

/-- precomputed_ggq_rules_optimal.cpp L1151-1176, entry 8 of `S_6_1_precomputed`. -/
def S_6_1_precomputed_row8 : List (Int × Int) := [
  (102897420818299, 256116522128015), (476079975120158, 452271290862824), (922432617144603, 407905738607968),
  (1318268676063118, 428945905163257), (1793222249498803, 483577257932254),
  (2222338424086770, 387200799877305), (2652115482642370, 484649813091319),
  (3128652049029556, 432464518539011), (3537296337179309, 431647263390327),
  (4012723536190940, 483437324574268), (4430324394687575, 348491384763493),
  (4790019737217096, 403292181069959), (5209980262782904, 403292181069959),
  (5569675605312424, 348491384763493), (5987276463809060, 483437324574268),
  (6462703662820691, 431647263390327), (6871347950970443, 432464518539011),
  (7347884517357629, 484649813091319), (7777661575913229, 387200799877305),
  (8206777750501196, 483577257932254), (8681731323936881, 428945905163257),
  (9077567382855396, 407905738607968), (9523920024879842, 452271290862824), (9897102579181700, 256116522128015)]

/-- precomputed_ggq_rules_optimal.cpp L1177-1204, entry 9 of `S_6_1_precomputed`. -/
def S_6_1_precomputed_row9 : List (Int × Int) := [
  (92607678736469, 230504869915214), (428471977608142, 407044161776542), (830189355430143, 367115164747171),
  (1186441808456807, 386051314646931), (1613900024548923, 435219532139029),
  (2000108714990788, 348494580185272), (2386935704642815, 436223007685183),
  (2815875552203526, 389347384999072), (3184124505054660, 389347449844660),
  (3613064439267332, 436223099348644), (4000000000365804, 348858870652238),
  (4386935563548670, 436223102734296), (4815875502812585, 389347461325750),
  (5184124497187416, 389347461325750), (5613064436451330, 436223102734296),
  (5999999999634196, 348858870652238), (6386935560732669, 436223099348644),
  (6815875494945342, 389347449844660), (7184124447796475, 389347384999072),
  (7613064295357186, 436223007685183), (7999891285009212, 348494580185272),
  (8386099975451077, 435219532139029), (8813558191543195, 386051314646931),
  (9169810644569858, 367115164747171), (9571528022391859, 407044161776542), (9907392321263532, 230504869915214)]

/-- precomputed_ggq_rules_optimal.cpp L1205-1235, entry 10 of `S_6_1_precomputed`. -/
def S_6_1_precomputed_row10 : List (Int × Int) := [
  (84188798851335, 209549881741104), (389519979643766, 370040147069584), (754717595845585, 333741058861065),
  (1078583462233460, 350955740588119), (1467181840499021, 395654120126390),
  (1818280645439954, 316813239450883), (2169941514689534, 396566328581962),
  (2559886767926434, 353952025595501), (2894658027490103, 353951279003377),
  (3284602282526184, 396565271434928), (3635997413879372, 315922404318610),
  (3985320634301558, 393210468601860), (4370446642220756, 343813756810849),
  (4670479577375078, 292737388934886), (5000000000000000, 353053777761769),
  (5329520422624923, 292737388934886), (5629553357779244, 343813756810849),
  (6014679365698442, 393210468601860), (6364002586120630, 315922404318610),
  (6715397717473816, 396565271434928), (7105341972509897, 353951279003377),
  (7440113232073566, 353952025595501), (7830058485310466, 396566328581962),
  (8181719354560045, 316813239450883), (8532818159500979, 395654120126390),
  (8921416537766540, 350955740588119), (9245282404154416, 333741058861065),
  (9610480020356235, 370040147069584), (9915811201148665, 209549881741104)]

/-- precomputed_ggq_rules_optimal.cpp L1236-1268, entry 11 of `S_6_1_precomputed`. -/
def S_6_1_precomputed_row11 : List (Int × Int) := [
  (77173065613724, 192087391596012), (357059981340118, 339203468147118), (691824462858452, 305929303955976),
  (988701507047339, 321709428872442), (1344916687124103, 362682943449191), (1666757262492324, 290412150154393),
  (1989113087202346, 363519173070986), (2346562960169605, 324456154165893),
  (2653437087545549, 324456208203883), (3010887032722776, 363519249457203),
  (3333333333638170, 290715725543532), (3655779636290558, 363519252278580),
  (4013229585677154, 324456217771458), (4320103747656179, 324456217771458),
  (4677553697042776, 363519252278580), (5000000000000000, 290715726566590),
  (5322446302957224, 363519252278580), (5679896252343820, 324456217771458),
  (5986770414322846, 324456217771458), (6344220363709442, 363519252278580),
  (6666666666361829, 290715725543532), (6989112967277223, 363519249457203),
  (7346562912454451, 324456208203883), (7653437039830395, 324456154165893),
  (8010886912797655, 363519173070986), (8333242737507677, 290412150154393),
  (8655083312875896, 362682943449191), (9011298492952662, 321709428872442),
  (9308175537141548, 305929303955976), (9642940018659881, 339203468147118), (9922826934386275, 192087391596012)]

/-- precomputed_ggq_rules_optimal.cpp L1269-1304, entry 12 of `S_6_1_precomputed`. -/
def S_6_1_precomputed_row12 : List (Int × Int) := [
  (71236675951130, 177311438396318), (329593828929340, 313110893674263), (638607196484725, 282396280574747),
  (912647544966774, 296962549728408), (1241461557345326, 334784255491561), (1538545165377123, 268072753987307),
  (1836104388183655, 335556159754076), (2166058117070905, 299497988448084),
  (2449326542294928, 299498038257349), (2779280337741395, 335556230162773),
  (3076919903431011, 268342326603552), (3374541387525929, 335526861342113),
  (3704451383384104, 299398567176437), (3987358997045836, 298832728953386),
  (4316500907603621, 334687380911011), (4605609196010448, 241263267336335),
  (4854629048842605, 279202279202279), (5145370951157395, 279202279202279),
  (5394390803989553, 241263267336335), (5683499092396379, 334687380911011),
  (6012641002954165, 298832728953386), (6295548616615898, 299398567176437),
  (6625458612474071, 335526861342113), (6923080096568990, 268342326603552),
  (7220719662258605, 335556230162773), (7550673457705072, 299498038257349),
  (7833941882929096, 299497988448084), (8163895611816346, 335556159754076),
  (8461454834622878, 268072753987307), (8758538442654674, 334784255491561),
  (9087352455033226, 296962549728408), (9361392803515275, 282396280574747),
  (9670406171070660, 313110893674263), (9928763324048870, 177311438396318)]

/-- precomputed_ggq_rules_optimal.cpp L1305-1342, entry 13 of `S_6_1_precomputed`. -/
def S_6_1_precomputed_row13 : List (Int × Int) := [
  (66148341954621, 164646335653724), (306051412577244, 290745829840387), (592992396735816, 262225117676551),
  (847458434612005, 275750939033522), (1152785731820659, 310871094385020), (1428649082136277, 248924700132337),
  (1704954074744868, 311587862632273), (2011339680145375, 278105274999337),
  (2274374646467613, 278105321317614), (2580760313762380, 311587928106174),
  (2857142857404146, 249184907608741), (3133525402534764, 311587930524497),
  (3439911073437560, 278105329518393), (3702946069419582, 278105329518393),
  (4009331740322379, 311587930524497), (4285714285714285, 249184908485649),
  (4562096831106192, 311587930524497), (4868482502008989, 278105329518393),
  (5131517497991011, 278105329518393), (5437903168893807, 311587930524497),
  (5714285714285714, 249184908485649), (5990668259677620, 311587930524497),
  (6297053930580417, 278105329518393), (6560088926562440, 278105329518393),
  (6866474597465236, 311587930524497), (7142857142595853, 249184907608741),
  (7419239686237620, 311587928106174), (7725625353532386, 278105321317614),
  (7988660319854624, 278105274999337), (8295045925255132, 311587862632273),
  (8571350917863723, 248924700132337), (8847214268179340, 310871094385020),
  (9152541565387995, 275750939033522), (9407007603264184, 262225117676551),
  (9693948587422755, 290745829840387), (9933851658045378, 164646335653724)]

/-- precomputed_ggq_rules_optimal.cpp L1343-1383, entry 14 of `S_6_1_precomputed`. -/
def S_6_1_precomputed_row14 : List (Int × Int) := [
  (61738452490979, 153669913276809), (285647985072095, 271362774517695), (553459570286762, 244743443164781),
  (790961205637871, 257367543097954), (1075933349699282, 290146354759352), (1333405809993859, 232329720123514),
  (1591290469761877, 290815338456788), (1877250368135684, 259564923332715),
  (2122749670036439, 259564966563106), (2408709626178221, 290815399565762),
  (2666666663578855, 232572569253427), (2924623683384825, 290815370986960),
  (3210583596888313, 259564869649625), (3456082548247587, 259564278921244),
  (3742041671973044, 290814534640927), (3999731436599342, 231676430655122),
  (4255901798487809, 288354343641364), (4538327537628554, 252130088327956),
  (4758351690075057, 214674085218916), (5000000000000000, 258906103691964),
  (5241648309924942, 214674085218916), (5461672462371446, 252130088327956),
  (5744098201512191, 288354343641364), (6000268563400658, 231676430655122),
  (6257958328026957, 290814534640927), (6543917451752413, 259564278921244),
  (6789416403111688, 259564869649625), (7075376316615175, 290815370986960),
  (7333333336421145, 232572569253427), (7591290373821779, 290815399565762),
  (7877250329963561, 259564966563106), (8122749631864316, 259564923332715),
  (8408709530238123, 290815338456788), (8666594190006141, 232329720123514),
  (8924066650300717, 290146354759352), (9209038794362129, 257367543097954),
  (9446540429713238, 244743443164781), (9714352014927905, 271362774517695), (9938261547509021, 153669913276809)]

/-- precomputed_ggq_rules_optimal.cpp L1384-1426, entry 15 of `S_6_1_precomputed`. -/
def S_6_1_precomputed_row15 : List (Int × Int) := [
  (57879799210293, 144065543697009), (267794986005089, 254402601110339), (518868347143839, 229446977966982),
  (741526130285504, 241282071654332), (1008687515343077, 272012207586893), (1250067946869243, 217809112615795),
  (1491834815401759, 272639379803239), (1759922220127204, 243342115624420),
  (1990077815659162, 243342156152912), (2258165274542082, 272639437092902),
  (2500000000228628, 218036794157649), (2741834727217918, 272639439208935),
  (3009922189257865, 243342163328594), (3240077810742135, 243342163328594),
  (3508165272782082, 272639439208935), (3750000000000000, 218036794924943),
  (3991834727217918, 272639439208935), (4259922189257865, 243342163328594),
  (4490077810742135, 243342163328594), (4758165272782082, 272639439208935),
  (5000000000000000, 218036794924943), (5241834727217918, 272639439208935),
  (5509922189257865, 243342163328594), (5740077810742135, 243342163328594),
  (6008165272782082, 272639439208935), (6250000000000000, 218036794924943),
  (6491834727217918, 272639439208935), (6759922189257865, 243342163328594),
  (6990077810742135, 243342163328594), (7258165272782082, 272639439208935),
  (7499999999771372, 218036794157649), (7741834725457918, 272639437092902),
  (8009922184340839, 243342156152912), (8240077779872796, 243342115624420),
  (8508165184598241, 272639379803239), (8749932053130758, 217809112615795),
  (8991312484656923, 272012207586893), (9258473869714496, 241282071654332),
  (9481131652856161, 229446977966982), (9732205013994911, 254402601110339), (9942120200789707, 144065543697009)]

/-- precomputed_ggq_rules_optimal.cpp L1427-1472, entry 16 of `S_6_1_precomputed`. -/
def S_6_1_precomputed_row16 : List (Int × Int) := [
  (54475105139099, 135591099950126), (252042339769495, 239437742221495), (488346679664790, 215950096910101),
  (697906946151063, 227089008615842), (949352955617014, 256011489493546), (1176534538229875, 204996811873689),
  (1404079826260480, 256601769226578), (1656397383649133, 229027873528866),
  (1873014414738035, 229027911673329), (2125332023098430, 256601823146261),
  (2352941176685457, 205211100382627), (2580550331496827, 256601825134947),
  (2832867942824255, 229027918417167), (3049484998303618, 229027918362132),
  (3301802609557516, 256601825057196), (3529409337702637, 205202956360198),
  (3757002237519828, 256579364555734), (4009286351999609, 228951845487864),
  (4225627468329168, 228519145670236), (4477324223461593, 255937408931950),
  (4698407032243284, 184495439727785), (4888833978526698, 213507625272331),
  (5111166021473302, 213507625272331), (5301592967756716, 184495439727785),
  (5522675776538407, 255937408931950), (5774372531670832, 228519145670236),
  (5990713648000392, 228951845487864), (6242997762480171, 256579364555734),
  (6470590662297363, 205202956360198), (6698197390442484, 256601825057196),
  (6950515001696382, 229027918362132), (7167132057175745, 229027918417167),
  (7419449668503173, 256601825134947), (7647058823314543, 205211100382627),
  (7874667976901569, 256601823146261), (8126985585261965, 229027911673329),
  (8343602616350867, 229027873528866), (8595920173739521, 256601769226578),
  (8823465461770124, 204996811873689), (9050647044382986, 256011489493546),
  (9302093053848938, 227089008615842), (9511653320335209, 215950096910101),
  (9747957660230504, 239437742221495), (9945524894860900, 135591099950126)]

/-- precomputed_ggq_rules_optimal.cpp L1473-1520, entry 17 of `S_6_1_precomputed`. -/
def S_6_1_precomputed_row17 : List (Int × Int) := [
  (51448710409149, 128058261064008), (238039987560079, 226135645431412), (461216308572302, 203952869303984),
  (659134338031559, 214472952581628), (896611124749402, 241788628966127), (1111171508328216, 193608100102929),
  (1326075391468231, 242346115380657), (1564375306779736, 216304102777262),
  (1768958058363699, 216304138802589), (2007258021815184, 242346166304802),
  (2222222222425447, 193810483695688), (2437186424193705, 242346168185720),
  (2675486390451436, 216304145180972), (2880069165104119, 216304145180972),
  (3118369131361850, 242346168185720), (3333333333333333, 193810484377727),
  (3548297535304816, 242346168185720), (3786597501562547, 216304145180972),
  (3991180276215230, 216304145180972), (4229480242472961, 242346168185720),
  (4444444444444444, 193810484377727), (4659408646415927, 242346168185720),
  (4897708612673658, 216304145180972), (5102291387326342, 216304145180972),
  (5340591353584073, 242346168185720), (5555555555555556, 193810484377727),
  (5770519757527037, 242346168185720), (6008819723784768, 216304145180972),
  (6213402498437453, 216304145180972), (6451702464695184, 242346168185720),
  (6666666666666666, 193810484377727), (6881630868638149, 242346168185720),
  (7119930834895880, 216304145180972), (7324513609548564, 216304145180972),
  (7562813575806295, 242346168185720), (7777777777574553, 193810483695688),
  (7992741978184815, 242346166304802), (8231041941636300, 216304138802589),
  (8435624693220263, 216304102777262), (8673924608531769, 242346115380657),
  (8888828491671784, 193608100102929), (9103388875250599, 241788628966127),
  (9340865661968440, 214472952581628), (9538783691427698, 203952869303984),
  (9761960012439920, 226135645431412), (9948551289590849, 128058261064008)]

/-- precomputed_ggq_rules_optimal.cpp L1521-1571, entry 18 of `S_6_1_precomputed`. -/
def S_6_1_precomputed_row18 : List (Int × Int) := [
  (48740883545510, 121318352586955), (225511567162180, 214233769356075), (436941766015865, 193218507761669),
  (624443057082530, 203184902445753), (849421065552065, 229062911652120), (1052688797363573, 183418200097511),
  (1256281949812008, 229591056676412), (1482039764317645, 204919676315301),
  (1675855002660347, 204919710444558), (1901612862772279, 229591104920339),
  (2105263158087265, 183609931922230), (2308913454499300, 229591106702261),
  (2534671317269781, 204919716487237), (2728486577467060, 204919716487237),
  (2954244440237542, 229591106702261), (3157894734211831, 183609923740953),
  (3361545013198546, 229591082358126), (3587302839648668, 204919633933915),
  (3781117801248094, 204919167569403), (4006875004189245, 229590422084942),
  (4210314292052112, 182902445254043), (4412554051437744, 227648166032656),
  (4635521740233068, 199050069732597), (4809225018480308, 169479540962302),
  (5000000000000000, 204399555546287), (5190774981519691, 169479540962302),
  (5364478259766930, 199050069732597), (5587445948562256, 227648166032656),
  (5789685707947888, 182902445254043), (5993124995810755, 229590422084942),
  (6218882198751905, 204919167569403), (6412697160351332, 204919633933915),
  (6638454986801453, 229591082358126), (6842105265788170, 183609923740953),
  (7045755559762458, 229591106702261), (7271513422532939, 204919716487237),
  (7465328682730218, 204919716487237), (7691086545500700, 229591106702261),
  (7894736841912734, 183609931922230), (8098387137227719, 229591104920339),
  (8324144997339653, 204919710444558), (8517960235682355, 204919676315301),
  (8743718050187991, 229591056676412), (8947311202636428, 183418200097511),
  (9150578934447935, 229062911652120), (9375556942917470, 203184902445753),
  (9563058233984135, 193218507761669), (9774488432837819, 214233769356075), (9951259116454488, 121318352586955)]

/-- precomputed_ggq_rules_optimal.cpp L1572-1624, entry 19 of `S_6_1_precomputed`. -/
def S_6_1_precomputed_row19 : List (Int × Int) := [
  (46303839368235, 115252434957607), (214235988804071, 203522080888271), (415094677715072, 183557582373586),
  (593220904228403, 193025657323466), (806950012274462, 217609766069514), (1000054357495394, 174247290092636),
  (1193467852321408, 218111503842591), (1407937776101763, 194673692499536),
  (1592062252527330, 194673724922330), (1806532219633666, 218111549674322),
  (2000000000182902, 174429435326119), (2193467781774335, 218111551367148),
  (2407937751406292, 194673730662875), (2592062248593708, 194673730662875),
  (2806532218225665, 218111551367148), (3000000000000000, 174429435939954),
  (3193467781774335, 218111551367148), (3407937751406293, 194673730662875),
  (3592062248593708, 194673730662875), (3806532218225666, 218111551367148),
  (4000000000000000, 174429435939954), (4193467781774334, 218111551367148),
  (4407937751406292, 194673730662875), (4592062248593708, 194673730662875),
  (4806532218225666, 218111551367148), (5000000000000000, 174429435939954),
  (5193467781774335, 218111551367148), (5407937751406292, 194673730662875),
  (5592062248593708, 194673730662875), (5806532218225666, 218111551367148),
  (6000000000000001, 174429435939954), (6193467781774334, 218111551367148),
  (6407937751406293, 194673730662875), (6592062248593709, 194673730662875),
  (6806532218225666, 218111551367148), (7000000000000001, 174429435939954),
  (7193467781774334, 218111551367148), (7407937751406293, 194673730662875),
  (7592062248593708, 194673730662875), (7806532218225666, 218111551367148),
  (7999999999817098, 174429435326119), (8193467780366334, 218111549674322),
  (8407937747472671, 194673724922330), (8592062223898238, 194673692499536),
  (8806532147678592, 218111503842591), (8999945642504606, 174247290092636),
  (9193049987725539, 217609766069514), (9406779095771598, 193025657323466),
  (9584905322284929, 183557582373586), (9785764011195929, 203522080888271), (9953696160631765, 115252434957607)]

/-- precomputed_ggq_rules_optimal.cpp L1625-1680, entry 20 of `S_6_1_precomputed`. -/
def S_6_1_precomputed_row20 : List (Int × Int) := [
  (44098894636414, 109764223769150), (204034275051496, 193830553226925), (395328264490544, 174816745117701),
  (564972289741336, 183833959355681), (768523821213773, 207247396256680), (952432721424185, 165949800088225),
  (1136636049829912, 207725241754849), (1340893120096917, 185403516666225),
  (1516249764311742, 185403547545076), (1720506875841586, 207725285404116),
  (1904761904936097, 166123271739161), (2089016935023176, 207725287016331),
  (2293274048958374, 185403553012262), (2468630712946388, 185403553012262),
  (2672887826881586, 207725287016331), (2857142857142606, 166123272322922),
  (3041397887402193, 207725287014005), (3245655001333920, 185403553004373),
  (3421011665293405, 185403552959821), (3625268779165609, 207725286951063),
  (3809521844806897, 166116678958255), (3993763716087480, 207707104640356),
  (4197993713523492, 185341970156842), (4373126998171231, 184991689352096),
  (4576881514230813, 207187426278245), (4755853311815991, 149353451208207),
  (4910008458807326, 172839506172840), (5089991541192673, 172839506172840),
  (5244146688184008, 149353451208207), (5423118485769186, 207187426278245),
  (5626873001828768, 184991689352096), (5802006286476508, 185341970156842),
  (6006236283912519, 207707104640356), (6190478155193103, 166116678958255),
  (6374731220834392, 207725286951063), (6578988334706595, 185403552959821),
  (6754344998666079, 185403553004373), (6958602112597806, 207725287014005),
  (7142857142857394, 166123272322922), (7327112173118413, 207725287016331),
  (7531369287053611, 185403553012262), (7706725951041626, 185403553012262),
  (7910983064976824, 207725287016331), (8095238095063901, 166123271739161),
  (8279493124158414, 207725285404116), (8483750235688258, 185403547545076),
  (8659106879903082, 185403516666225), (8863363950170087, 207725241754849),
  (9047567278575815, 165949800088225), (9231476178786227, 207247396256680),
  (9435027710258663, 183833959355681), (9604671735509456, 174816745117701),
  (9795965724948502, 193830553226925), (9955901105363585, 109764223769150)]

/-- precomputed_ggq_rules_optimal.cpp L1681-1738, entry 21 of `S_6_1_precomputed`. -/
def S_6_1_precomputed_row21 : List (Int × Int) := [
  (42094399425668, 104774940870552), (194759989821883, 185020073534792), (377358797922792, 166870529430532),
  (539291731116730, 175477870294060), (733590920249511, 197827060063195), (909140324995813, 158406627356942),
  (1084970774837643, 198283185311447), (1279943432819785, 176976084090487),
  (1447329320479391, 176976113565754), (1642302017848787, 198283226976656),
  (1818181818348093, 158572213932835), (1994061619794850, 198283228515589),
  (2189034319460266, 176976118784432), (2356420225994280, 176976118784432),
  (2551392925659696, 198283228515589), (2727272727272727, 158572214490867),
  (2903152528885759, 198283228515589), (3098125228551175, 176976118784432),
  (3265511135085189, 176976118784432), (3460483834750605, 198283228515589),
  (3636363636363636, 158572214490867), (3812243437976667, 198283228515589),
  (4007216137642084, 176976118784432), (4174602044176098, 176976118784432),
  (4369574743841514, 198283228515589), (4545454545454546, 158572214490867),
  (4721334347067577, 198283228515589), (4916307046732993, 176976118784432),
  (5083692953267007, 176976118784432), (5278665652932424, 198283228515589),
  (5454545454545454, 158572214490867), (5630425256158486, 198283228515589),
  (5825397955823902, 176976118784432), (5992783862357917, 176976118784432),
  (6187756562023333, 198283228515589), (6363636363636364, 158572214490867),
  (6539516165249395, 198283228515589), (6734488864914812, 176976118784432),
  (6901874771448825, 176976118784432), (7096847471114242, 198283228515589),
  (7272727272727273, 158572214490867), (7448607074340304, 198283228515589),
  (7643579774005721, 176976118784432), (7810965680539734, 176976118784432),
  (8005938380205151, 198283228515589), (8181818181651906, 158572213932835),
  (8357697982151212, 198283226976656), (8552670679520610, 176976113565754),
  (8720056567180215, 176976084090487), (8915029225162356, 198283185311447),
  (9090859675004188, 158406627356942), (9266409079750491, 197827060063195),
  (9460708268883270, 175477870294060), (9622641202077208, 166870529430532),
  (9805240010178117, 185020073534792), (9957905600574332, 104774940870552)]

/-- precomputed_ggq_rules_optimal.cpp L1739-1799, entry 22 of `S_6_1_precomputed`. -/
def S_6_1_precomputed_row22 : List (Int × Int) := [
  (40264208146291, 100219508658789), (186292164177453, 176975722511540), (360951893665280, 159615289020509),
  (515844264546438, 167848397672579), (701695662847358, 189225883538708), (869612484778604, 151519382689248),
  (1037798132453398, 189662177254427), (1224293718349359, 169281471738727),
  (1384401958719417, 169281499932461), (1570897582290144, 189662217108106),
  (1739130434941654, 151677769848799), (1907363288499421, 189662218580129),
  (2093858914266341, 169281504924239), (2253967172690181, 169281504924239),
  (2440462798457100, 189662218580129), (2608695652173913, 151677770382569),
  (2776928505890726, 189662218580129), (2963424131657645, 169281504924239),
  (3123532390081484, 169281504924239), (3310028015848405, 189662218580129),
  (3478260867392381, 151677763090353), (3646493706555321, 189662198469756),
  (3832989302318465, 169281436728016), (3993097314074513, 169281051470377),
  (4179592394765028, 189661653026692), (4347650936912614, 151093324340297),
  (4514718564231179, 188057180635672), (4698909263670796, 164432666300841),
  (4842403276135906, 140004838186250), (5000000000000000, 168851806755628),
  (5157596723864093, 140004838186250), (5301090736329204, 164432666300841),
  (5485281435768821, 188057180635672), (5652349063087386, 151093324340297),
  (5820407605234972, 189661653026692), (6006902685925487, 169281051470377),
  (6167010697681535, 169281436728016), (6353506293444678, 189662198469756),
  (6521739132607618, 151677763090353), (6689971984151595, 189662218580129),
  (6876467609918515, 169281504924239), (7036575868342354, 169281504924239),
  (7223071494109274, 189662218580129), (7391304347826086, 151677770382569),
  (7559537201542900, 189662218580129), (7746032827309819, 169281504924239),
  (7906141085733659, 169281504924239), (8092636711500578, 189662218580129),
  (8260869565058345, 151677769848799), (8429102417709855, 189662217108106),
  (8615598041280583, 169281499932461), (8775706281650640, 169281471738727),
  (8962201867546601, 189662177254427), (9130387515221396, 151519382689248),
  (9298304337152642, 189225883538708), (9484155735453562, 167848397672579),
  (9639048106334720, 159615289020509), (9813707835822546, 176975722511540), (9959735791853708, 100219508658789)]

/-- precomputed_ggq_rules_optimal.cpp L1800-1862, entry 23 of `S_6_1_precomputed`. -/
def S_6_1_precomputed_row23 : List (Int × Int) := [
  (38586532806862, 96043695798006), (178529990670059, 169601734073559), (345912231429226, 152964651977988),
  (494350753523669, 160854714436221), (672458343562051, 181341471724595), (833378631246162, 145206075077196),
  (994556543601173, 181759586535493), (1173281480084802, 162228077082947), (1326718543772775, 162228104101942),
  (1505443516361388, 181759624728602), (1666666666819085, 145357862771766),
  (1827889818145279, 181759626139290), (2006614792838577, 162228108885729),
  (2160051873828090, 162228108885729), (2338776848521388, 181759626139290),
  (2500000000000000, 145357863283295), (2661223151478612, 181759626139290),
  (2839948126171910, 162228108885729), (2993385207161423, 162228108885729),
  (3172110181854721, 181759626139290), (3333333333333333, 145357863283295),
  (3494556484811945, 181759626139290), (3673281459505243, 162228108885729),
  (3826718540494756, 162228108885729), (4005443515188055, 181759626139290),
  (4166666666666666, 145357863283295), (4327889818145279, 181759626139290),
  (4506614792838577, 162228108885729), (4660051873828089, 162228108885729),
  (4838776848521388, 181759626139290), (5000000000000000, 145357863283295),
  (5161223151478611, 181759626139290), (5339948126171910, 162228108885729),
  (5493385207161423, 162228108885729), (5672110181854721, 181759626139290),
  (5833333333333333, 145357863283295), (5994556484811945, 181759626139290),
  (6173281459505243, 162228108885729), (6326718540494756, 162228108885729),
  (6505443515188054, 181759626139290), (6666666666666666, 145357863283295),
  (6827889818145279, 181759626139290), (7006614792838577, 162228108885729),
  (7160051873828089, 162228108885729), (7338776848521388, 181759626139290),
  (7500000000000000, 145357863283295), (7661223151478611, 181759626139290),
  (7839948126171910, 162228108885729), (7993385207161423, 162228108885729),
  (8172110181854721, 181759626139290), (8333333333180915, 145357862771766),
  (8494556483638611, 181759624728602), (8673281456227225, 162228104101942),
  (8826718519915198, 162228077082947), (9005443456398826, 181759586535493),
  (9166621368753838, 145206075077196), (9327541656437949, 181341471724595),
  (9505649246476331, 160854714436221), (9654087768570774, 152964651977988),
  (9821470009329940, 169601734073559), (9961413467193136, 96043695798006)]

/-- precomputed_ggq_rules_optimal.cpp L1863-1928, entry 24 of `S_6_1_precomputed`. -/
def S_6_1_precomputed_row24 : List (Int × Int) := [
  (37043071494588, 92201947966086), (171388791043257, 162817664710617), (332075742172057, 146846065898868),
  (474576723382723, 154420525858772), (645560009819569, 174087812855611), (800043485996315, 139397832074109),
  (954774281857126, 174489203074073), (1126350220881410, 155738953999629), (1273649802021864, 155738979937864),
  (1445225775706933, 174489239739457), (1600000000146322, 139543548260895),
  (1754774225419468, 174489241093718), (1926350201125034, 155738984530300),
  (2073649798874966, 155738984530300), (2245225774580532, 174489241093718),
  (2400000000000000, 139543548751963), (2554774225419468, 174489241093718),
  (2726350201125034, 155738984530300), (2873649798874966, 155738984530300),
  (3045225774580532, 174489241093718), (3199999999999789, 139543548751255),
  (3354774225417843, 174489241091764), (3526350201120493, 155738984523674),
  (3673649798846460, 155738984486250), (3845225774499111, 174489241038893),
  (3999998349637794, 139538010324935), (4154761521513484, 174473967897899),
  (4326314719359733, 155687254931747), (4473426678463834, 155393019055761),
  (4644580471953884, 174037438073726), (4794916781925433, 125456899014894),
  (4924407105398154, 145185185185185), (5075592894601846, 145185185185185),
  (5205083218074568, 125456899014894), (5355419528046117, 174037438073726),
  (5526573321536166, 155393019055761), (5673685280640267, 155687254931747),
  (5845238478486516, 174473967897899), (6000001650362207, 139538010324935),
  (6154774225500889, 174489241038893), (6326350201153540, 155738984486250),
  (6473649798879507, 155738984523674), (6645225774582159, 174489241091764),
  (6800000000000210, 139543548751255), (6954774225419468, 174489241093718),
  (7126350201125033, 155738984530300), (7273649798874966, 155738984530300),
  (7445225774580533, 174489241093718), (7600000000000000, 139543548751963),
  (7754774225419467, 174489241093718), (7926350201125034, 155738984530300),
  (8073649798874967, 155738984530300), (8245225774580532, 174489241093718),
  (8399999999853678, 139543548260895), (8554774224293067, 174489239739457),
  (8726350197978137, 155738979937864), (8873649779118590, 155738953999629),
  (9045225718142874, 174489203074073), (9199956514003685, 139397832074109),
  (9354439990180431, 174087812855611), (9525423276617278, 154420525858772),
  (9667924257827943, 146846065898868), (9828611208956742, 162817664710617), (9962956928505412, 92201947966086)]

/-- `S_6_1_precomputed`, precomputed_ggq_rules_optimal.cpp L1033-1929. -/
def S_6_1_precomputed : List (List (Int × Int)) := [
  S_6_1_precomputed_row0, S_6_1_precomputed_row1, S_6_1_precomputed_row2, S_6_1_precomputed_row3,
  S_6_1_precomputed_row4, S_6_1_precomputed_row5, S_6_1_precomputed_row6, S_6_1_precomputed_row7,
  S_6_1_precomputed_row8, S_6_1_precomputed_row9, S_6_1_precomputed_row10, S_6_1_precomputed_row11,
  S_6_1_precomputed_row12, S_6_1_precomputed_row13, S_6_1_precomputed_row14, S_6_1_precomputed_row15,
  S_6_1_precomputed_row16, S_6_1_precomputed_row17, S_6_1_precomputed_row18, S_6_1_precomputed_row19,
  S_6_1_precomputed_row20, S_6_1_precomputed_row21, S_6_1_precomputed_row22, S_6_1_precomputed_row23,
  S_6_1_precomputed_row24]

/-- precomputed_ggq_rules_optimal.cpp L1933-1939, entry 0 of `S_8_2_precomputed`. -/
def S_8_2_precomputed_row0 : List (Int × Int) := [
  (469100770306680, 1184634425280945), (2307653449471584, 2393143352496832),
  (5000000000000000, 2844444444444444), (7692346550528415, 2393143352496832),
  (9530899229693320, 1184634425280945)]

/-- precomputed_ggq_rules_optimal.cpp L1940-1949, entry 1 of `S_8_2_precomputed`. -/
def S_8_2_precomputed_row1 : List (Int × Int) := [
  (293173655586072, 737853886173769), (1421577047749542, 1445194213771602),
  (2998568254270798, 1605649753012993), (4438116663737563, 1211302147041636),
  (5561883336262438, 1211302147041636), (7001431745729203, 1605649753012993),
  (8578422952250458, 1445194213771602), (9706826344413928, 737853886173769)]

/-- precomputed_ggq_rules_optimal.cpp L1950-1962, entry 2 of `S_8_2_precomputed`. -/
def S_8_2_precomputed_row2 : List (Int × Int) := [
  (202160372772979, 508822110744474), (980544320488951, 997318879286161), (2070369694286659, 1112586358679218),
  (3087102405729628, 899427669193913), (3968578367488181, 940986497902544),
  (5000000000000000, 1081716968387379), (6031421632511818, 940986497902544),
  (6912897594270372, 899427669193913), (7929630305713340, 1112586358679218),
  (9019455679511048, 997318879286161), (9797839627227020, 508822110744474)]

/-- precomputed_ggq_rules_optimal.cpp L1963-1978, entry 3 of `S_8_2_precomputed`. -/
def S_8_2_precomputed_row3 : List (Int × Int) := [
  (152539239463897, 383936316369450), (739933288350767, 752708623001944), (1562856419945987, 840896734381072),
  (2339433133516802, 707476596257453), (3068719440854957, 799585311228663),
  (3924166284028009, 864716948732330), (4698226298308531, 650679470029087),
  (5301773701691469, 650679470029087), (6075833715971990, 864716948732330),
  (6931280559145042, 799585311228663), (7660566866483198, 707476596257453),
  (8437143580054013, 840896734381072), (9260066711649233, 752708623001944), (9847460760536103, 383936316369450)]

/-- precomputed_ggq_rules_optimal.cpp L1979-1997, entry 4 of `S_8_2_precomputed`. -/
def S_8_2_precomputed_row4 : List (Int × Int) := [
  (122171418928795, 307502553021388), (592636446598149, 602886915696861), (1251824892349217, 673711417713453),
  (1875540351447864, 572102676603133), (2472573336329959, 660058631277357),
  (3180545224222150, 717592550450609), (3832999624903167, 570495513986469),
  (4377924376712081, 569764061906434), (5000000000000000, 651771358688597),
  (5622075623287919, 569764061906434), (6167000375096834, 570495513986469),
  (6819454775777850, 717592550450609), (7527426663670043, 660058631277357),
  (8124459648552137, 572102676603133), (8748175107650784, 673711417713453),
  (9407363553401851, 602886915696861), (9877828581071205, 307502553021388)]

/-- precomputed_ggq_rules_optimal.cpp L1998-2019, entry 5 of `S_8_2_precomputed`. -/
def S_8_2_precomputed_row5 : List (Int × Int) := [
  (101831990477421, 256308865491706), (493974427638739, 502521342775449), (1043434622220619, 561585945244110),
  (1563602937500972, 477773291572864), (2063403981661016, 553473455521001),
  (2657477345702402, 602739859748263), (3210568663913413, 496508904470464),
  (3708997351590070, 536545534891905), (4281225201581190, 577850004504235),
  (4798401077858094, 434692795780002), (5201598922141906, 434692795780002),
  (5718774798418809, 577850004504235), (6291002648409929, 536545534891905),
  (6789431336086587, 496508904470464), (7342522654297597, 602739859748263),
  (7936596018338983, 553473455521001), (8436397062499027, 477773291572864),
  (8956565377779381, 561585945244110), (9506025572361261, 502521342775449), (9898168009522579, 256308865491706)]

/-- precomputed_ggq_rules_optimal.cpp L2020-2044, entry 6 of `S_8_2_precomputed`. -/
def S_8_2_precomputed_row6 : List (Int × Int) := [
  (87288292504087, 219702727847744), (423425024572153, 430751758122141), (894413555503040, 481385897706159),
  (1340339768756666, 409690649375849), (1769120566343620, 474978107311027),
  (2279013222306120, 517435262327121), (2754861100869013, 429818881310703),
  (3191662945702929, 474422699007908), (3699018081375796, 513755386207183),
  (4166012085687429, 408169414720111), (4555592602645424, 407085182273574),
  (5000000000000000, 465608067580959), (5444407397354576, 407085182273574),
  (5833987914312569, 408169414720111), (6300981918624203, 513755386207183),
  (6808337054297070, 474422699007908), (7245138899130987, 429818881310703),
  (7720986777693879, 517435262327121), (8230879433656378, 474978107311027),
  (8659660231243334, 409690649375849), (9105586444496959, 481385897706159),
  (9576574975427846, 430751758122141), (9912711707495911, 219702727847744)]

/-- precomputed_ggq_rules_optimal.cpp L2045-2072, entry 7 of `S_8_2_precomputed`. -/
def S_8_2_precomputed_row7 : List (Int × Int) := [
  (76377886963300, 192241479901093), (370500005273209, 376911033569945), (782618802473250, 421217147466801),
  (1172815699982982, 358508241153122), (1548063265720425, 415702805891931),
  (1994335780662798, 452891793132680), (2411010203121138, 376835842760980),
  (2794896720945967, 417687698817366), (3241913162694911, 453105753666667),
  (3657568827411964, 372952886489743), (4031671199681788, 402488328574841),
  (4460884955130834, 433417589117649), (4848791713059356, 326039399457183),
  (5151208286940644, 326039399457183), (5539115044869166, 433417589117649),
  (5968328800318211, 402488328574841), (6342431172588036, 372952886489743),
  (6758086837305088, 453105753666667), (7205103279054034, 417687698817366),
  (7588989796878862, 376835842760980), (8005664219337202, 452891793132680),
  (8451936734279575, 415702805891931), (8827184300017018, 358508241153122),
  (9217381197526751, 421217147466801), (9629499994726790, 376911033569945), (9923622113036700, 192241479901093)]

/-- precomputed_ggq_rules_optimal.cpp L2073-2103, entry 8 of `S_8_2_precomputed`. -/
def S_8_2_precomputed_row8 : List (Int × Int) := [
  (67891563764360, 170881589848353), (329333873468876, 335032588788690), (695662353329063, 374416015025960),
  (1042506014429012, 318678975141258), (1376070495579920, 369530309884574),
  (1772777237824526, 402593908949824), (2143207748814959, 335094304917191),
  (2484732366237712, 371723240208267), (2882616322039385, 403385931536020),
  (3253464916877152, 334808471331853), (3593446214079006, 369064950979843),
  (3988094049209663, 399614588300208), (4351333297815123, 317480353926918),
  (4654348269474124, 316624320655088), (5000000000000000, 362140901011904),
  (5345651730525876, 316624320655088), (5648666702184876, 317480353926918),
  (6011905950790336, 399614588300208), (6406553785920993, 369064950979843),
  (6746535083122848, 334808471331853), (7117383677960616, 403385931536020),
  (7515267633762288, 371723240208267), (7856792251185040, 335094304917191),
  (8227222762175472, 402593908949824), (8623929504420079, 369530309884574),
  (8957493985570988, 318678975141258), (9304337646670936, 374416015025960),
  (9670666126531124, 335032588788690), (9932108436235639, 170881589848353)]

/-- precomputed_ggq_rules_optimal.cpp L2104-2137, entry 9 of `S_8_2_precomputed`. -/
def S_8_2_precomputed_row9 : List (Int × Int) := [
  (61102426307964, 153793478627723), (296400579332842, 301529427211651), (626096326121983, 336974548058432),
  (938255964834094, 286811945115396), (1238465928404919, 332580186980555), (1595505489096911, 362338596497668),
  (1928902227605827, 301607380927176), (2236325306167047, 334628527245917),
  (2594514336244665, 363156487318829), (2928524202652310, 301922607875088),
  (3235854827185574, 334212710875931), (3593502631184311, 362509204815486),
  (3926046720210117, 298375636246240), (4225335169998983, 321992509212074),
  (4568707173371434, 346734772160992), (4879033158590231, 260831980830841),
  (5120966841409769, 260831980830841), (5431292826628566, 346734772160992),
  (5774664830001017, 321992509212074), (6073953279789883, 298375636246240),
  (6406497368815689, 362509204815486), (6764145172814428, 334212710875931),
  (7071475797347690, 301922607875088), (7405485663755336, 363156487318829),
  (7763674693832954, 334628527245917), (8071097772394173, 301607380927176),
  (8404494510903089, 362338596497668), (8761534071595082, 332580186980555),
  (9061744035165907, 286811945115396), (9373903673878017, 336974548058432),
  (9703599420667159, 301529427211651), (9938897573692037, 153793478627723)]

/-- precomputed_ggq_rules_optimal.cpp L2138-2174, entry 10 of `S_8_2_precomputed`. -/
def S_8_2_precomputed_row10 : List (Int × Int) := [
  (55547663612924, 139812261712079), (269455088540803, 274117678242206), (569178514956189, 306340521934663),
  (852960065245101, 260738284741529), (1125878554032393, 302346136821071), (1450460588120576, 329399442561980),
  (1753550167064643, 274192493914024), (2033034665785232, 304221427236860),
  (2358677527785868, 330161498869824), (2662366446032244, 274580652454034),
  (2941996882401875, 304194065831546), (3267569843709668, 330065453093174),
  (3571009213925829, 273946252009724), (3849181611990186, 301963890644349),
  (4172076207813335, 326958035302545), (4469272473424688, 259757016612426),
  (4717194002149924, 259056322203815), (5000000000000000, 296297131628300),
  (5282805997850076, 259056322203815), (5530727526575312, 259757016612426),
  (5827923792186666, 326958035302545), (6150818388009814, 301963890644349),
  (6428990786074171, 273946252009724), (6732430156290331, 330065453093174),
  (7058003117598125, 304194065831546), (7337633553967756, 274580652454034),
  (7641322472214132, 330161498869824), (7966965334214768, 304221427236860),
  (8246449832935357, 274192493914024), (8549539411879425, 329399442561980),
  (8874121445967607, 302346136821071), (9147039934754900, 260738284741529),
  (9430821485043811, 306340521934663), (9730544911459198, 274117678242206), (9944452336387076, 139812261712079)]

/-- precomputed_ggq_rules_optimal.cpp L2175-2214, entry 11 of `S_8_2_precomputed`. -/
def S_8_2_precomputed_row11 : List (Int × Int) := [
  (50918692236132, 128161241394613), (247000500740431, 251274541427828), (521746978543806, 280812149308864),
  (781880077044612, 239010121441991), (1032055418732254, 277150716251845), (1329589059072005, 301949616404811),
  (1607421462982003, 251343822614729), (1863617177801862, 278872066430049),
  (2162126055219724, 302651451913814), (2440515299328012, 251717672321617),
  (2696885621381426, 278909237214522), (2995405401985555, 302650965911746),
  (3273763269959433, 251613205989403), (3529877504457309, 278512111902070),
  (3827918182327043, 302091601044809), (4105038731095982, 248646686924086),
  (4354445931572043, 268327135811763), (4640589291956342, 288945660473515),
  (4899194293684649, 217359995217926), (5100805706315350, 217359995217926),
  (5359410708043657, 288945660473515), (5645554068427956, 268327135811763),
  (5894961268904018, 248646686924086), (6172081817672956, 302091601044809),
  (6470122495542689, 278512111902070), (6726236730040567, 251613205989403),
  (7004594598014445, 302650965911746), (7303114378618574, 278909237214522),
  (7559484700671987, 251717672321617), (7837873944780276, 302651451913814),
  (8136382822198138, 278872066430049), (8392578537017996, 251343822614729),
  (8670410940927995, 301949616404811), (8967944581267746, 277150716251845),
  (9218119922955388, 239010121441991), (9478253021456193, 280812149308864),
  (9752999499259569, 251274541427828), (9949081307763868, 128161241394613)]

/-- precomputed_ggq_rules_optimal.cpp L2215-2257, entry 12 of `S_8_2_precomputed`. -/
def S_8_2_precomputed_row12 : List (Int × Int) := [
  (47001869862133, 118302684631111), (228000462742693, 231945731092377), (481612596741670, 259211215498274),
  (721735458816611, 220624732331522), (952666554237135, 255831446633598), (1227313010987238, 278722745621498),
  (1483773743370581, 232009808195526), (1720262380096451, 257420802741038),
  (1995809558587534, 279371181187537), (2252785629420613, 232358127532846),
  (2489442747360575, 257466252012319), (2765013406355464, 279386402178457),
  (3021996010886429, 232347657228566), (3258611345021530, 257396381501000),
  (3534096935977520, 279286705026944), (3790853764563577, 231800971629426),
  (4026230554008258, 255507948319271), (4299449080649232, 276656814990345),
  (4550922856590366, 219794407625327), (4760702616304248, 219201504877777),
  (5000000000000000, 250712958290484), (5239297383695752, 219201504877777),
  (5449077143409635, 219794407625327), (5700550919350768, 276656814990345),
  (5973769445991742, 255507948319271), (6209146235436424, 231800971629426),
  (6465903064022479, 279286705026944), (6741388654978471, 257396381501000),
  (6978003989113573, 232347657228566), (7234986593644537, 279386402178457),
  (7510557252639426, 257466252012319), (7747214370579387, 232358127532846),
  (8004190441412466, 279371181187537), (8279737619903550, 257420802741038),
  (8516226256629420, 232009808195526), (8772686989012763, 278722745621498),
  (9047333445762865, 255831446633598), (9278264541183390, 220624732331522),
  (9518387403258329, 259211215498274), (9771999537257307, 231945731092377), (9952998130137868, 118302684631111)]

/-- precomputed_ggq_rules_optimal.cpp L2258-2303, entry 13 of `S_8_2_precomputed`. -/
def S_8_2_precomputed_row13 : List (Int × Int) := [
  (43644593462395, 109852492919675), (211714715497461, 215378178969130), (447211697183252, 240696128811967),
  (670182926597750, 204865823749761), (884618945711164, 237557774792199), (1139647801912456, 258813982169708),
  (1377789919867013, 215437701630204), (1597386562226239, 239033680446585),
  (1853251893226388, 259416206412528), (2091872779009159, 215761720694969),
  (2311627180366059, 239077883870942), (2567516724474463, 259433154869670),
  (2806150059387015, 215767459271381), (3025900659641560, 239066363020608),
  (3281775479501647, 259415626835135), (3520368344921929, 215668737640068),
  (3739894965929791, 238724705268951), (3995358425098516, 258935672938894),
  (4232890335887699, 213125739720122), (4446667940263633, 229994688956794),
  (4691933678340874, 247667709401726), (4913595108744261, 186308567608981),
  (5086404891255739, 186308567608981), (5308066321659125, 247667709401726),
  (5553332059736366, 229994688956794), (5767109664112300, 213125739720122),
  (6004641574901483, 258935672938894), (6260105034070208, 238724705268951),
  (6479631655078070, 215668737640068), (6718224520498354, 259415626835135),
  (6974099340358439, 239066363020608), (7193849940612984, 215767459271381),
  (7432483275525537, 259433154869670), (7688372819633940, 239077883870942),
  (7908127220990840, 215761720694969), (8146748106773611, 259416206412528),
  (8402613437773760, 239033680446585), (8622210080132987, 215437701630204),
  (8860352198087543, 258813982169708), (9115381054288836, 237557774792199),
  (9329817073402250, 204865823749761), (9552788302816748, 240696128811967),
  (9788285284502538, 215378178969130), (9956355406537605, 109852492919675)]

/-- precomputed_ggq_rules_optimal.cpp L2304-2352, entry 14 of `S_8_2_precomputed`. -/
def S_8_2_precomputed_row14 : List (Int × Int) := [
  (40734953901669, 102528993400365), (197600401147880, 201019633722180), (417397584075473, 224649720248919),
  (625504064924717, 191208102323879), (825644349780931, 221720590333822), (1063671282869336, 241559717431908),
  (1285937261311234, 201075192274048), (1490894136757522, 223098115839239),
  (1729701795994226, 242121812472948), (1952414667682965, 201377714908754),
  (2157519022176698, 223139734183930), (2396349716148752, 242138140100785),
  (2619075361519121, 201385867926120), (2824182499600513, 223138634129740),
  (3063011078151396, 242135360916073), (3285729715437532, 201368226553233),
  (3490796463648564, 223076899366092), (3729550662098500, 242048491630029),
  (3952073257936128, 200894182903182), (4156066479112104, 221440222907569),
  (4392855869434968, 239769240059234), (4610799808905227, 190488486834551),
  (4792608934107648, 189974637597950), (5000000000000000, 217284563870902),
  (5207391065892352, 189974637597950), (5389200191094773, 190488486834551),
  (5607144130565033, 239769240059234), (5843933520887896, 221440222907569),
  (6047926742063872, 200894182903182), (6270449337901500, 242048491630029),
  (6509203536351436, 223076899366092), (6714270284562468, 201368226553233),
  (6936988921848605, 242135360916073), (7175817500399487, 223138634129740),
  (7380924638480878, 201385867926120), (7603650283851249, 242138140100785),
  (7842480977823302, 223139734183930), (8047585332317035, 201377714908754),
  (8270298204005774, 242121812472948), (8509105863242478, 223098115839239),
  (8714062738688766, 201075192274048), (8936328717130664, 241559717431908),
  (9174355650219068, 221720590333822), (9374495935075283, 191208102323879),
  (9582602415924527, 224649720248919), (9802399598852121, 201019633722180), (9959265046098332, 102528993400365)]

/-- precomputed_ggq_rules_optimal.cpp L2353-2404, entry 15 of `S_8_2_precomputed`. -/
def S_8_2_precomputed_row15 : List (Int × Int) := [
  (38189019283437, 96120931314414), (185250376079205, 188455906617746), (391310235077605, 210609112737789),
  (586410060885083, 179257595957185), (774041578001317, 207863053533661), (997191827886638, 226462235226635),
  (1205566182981342, 188507993497830), (1397713255388562, 209154486154134),
  (1621595439000211, 226989202787679), (1830388764360909, 188791627479249),
  (2022674141408969, 209193568962226), (2246577999117277, 227004602251023),
  (2455383509163060, 188799778156612), (2647672643964303, 209194288124574),
  (2871576627023780, 227004459607903), (3080381151348949, 188796767748742),
  (3272663044026073, 209183100829815), (3496553529803725, 226988686555737),
  (3705322297419820, 188710152450627), (3897408094223208, 208884118076548),
  (4120938621530733, 226568714201159), (4328779043773032, 186485022460733),
  (4515834447703066, 201245352865682), (4730441968536065, 216709245737324),
  (4924395720147960, 163019996664975), (5075604279852040, 163019996664975),
  (5269558031463935, 216709245737324), (5484165552296933, 201245352865682),
  (5671220956226968, 186485022460733), (5879061378469268, 226568714201159),
  (6102591905776793, 208884118076548), (6294677702580180, 188710152450627),
  (6503446470196275, 226988686555737), (6727336955973927, 209183100829815),
  (6919618848651051, 188796767748742), (7128423372976219, 227004459607903),
  (7352327356035697, 209194288124574), (7544616490836940, 188799778156612),
  (7753422000882723, 227004602251023), (7977325858591031, 209193568962226),
  (8169611235639092, 188791627479249), (8378404560999789, 226989202787679),
  (8602286744611438, 209154486154134), (8794433817018659, 188507993497830),
  (9002808172113362, 226462235226635), (9225958421998683, 207863053533661),
  (9413589939114917, 179257595957185), (9608689764922396, 210609112737789),
  (9814749623920795, 188455906617746), (9961810980716563, 96120931314414)]

/-- precomputed_ggq_rules_optimal.cpp L2405-2459, entry 16 of `S_8_2_precomputed`. -/
def S_8_2_precomputed_row16 : List (Int × Int) := [
  (35942606384525, 90466758884441), (174353295133929, 177370265052580), (368291985956642, 198220341401079),
  (551915351424567, 168713031494322), (728509720486726, 195635815107959), (938533485105639, 213140927296606),
  (1134650525250475, 177419288133083), (1315494828998289, 196851281552192),
  (1526207472958709, 213636897396865), (1722718839490908, 177686241229911),
  (1903693320160883, 196888077337382), (2114426377684848, 213651407845152),
  (2310949250338623, 177694004962999), (2491927477114786, 196889073444805),
  (2702661037175668, 213651722769883), (2899184000763302, 177693639590820),
  (3080160997849445, 196887061349218), (3290892113889453, 213648860174148),
  (3487408568317169, 177677853560319), (3668349819957667, 196832559173643),
  (3879015289682304, 213572198855224), (4075358756882085, 177259573342322),
  (4255352775660730, 195388432003751), (4464284590666068, 211561094180213),
  (4656588066677493, 168078076624526), (4817007883035577, 167624680234441),
  (5000000000000000, 191721674004229), (5182992116964423, 167624680234441),
  (5343411933322507, 168078076624526), (5535715409333931, 211561094180213),
  (5744647224339271, 195388432003751), (5924641243117915, 177259573342322),
  (6120984710317696, 213572198855224), (6331650180042333, 196832559173643),
  (6512591431682830, 177677853560319), (6709107886110547, 213648860174148),
  (6919839002150556, 196887061349218), (7100815999236697, 177693639590820),
  (7297338962824332, 213651722769883), (7508072522885214, 196889073444805),
  (7689050749661377, 177694004962999), (7885573622315152, 213651407845152),
  (8096306679839117, 196888077337382), (8277281160509091, 177686241229911),
  (8473792527041291, 213636897396865), (8684505171001711, 196851281552192),
  (8865349474749525, 177419288133083), (9061466514894361, 213140927296606),
  (9271490279513273, 195635815107959), (9448084648575433, 168713031494322),
  (9631708014043358, 198220341401079), (9825646704866071, 177370265052580), (9964057393615476, 90466758884441)]

/-- precomputed_ggq_rules_optimal.cpp L2460-2517, entry 17 of `S_8_2_precomputed`. -/
def S_8_2_precomputed_row17 : List (Int × Int) := [
  (33945794918739, 85440827835358), (164667000959924, 167516361438655), (347831320070390, 187208100212278),
  (521253387457140, 159340085301144), (688036958240186, 184767158716261), (886392735939655, 201299764673488),
  (1071614384975508, 167562661039263), (1242411783015404, 185915099328855),
  (1441418169080546, 201768180994566), (1627012237743681, 167814784041883),
  (1797932582088244, 185949853089652), (1996958250263148, 201781888382361),
  (2182563192794040, 167822133355588), (2353487113380209, 185950852177715),
  (2552513326424156, 201782267866526), (2738118540933500, 167822239147358),
  (2909042320714513, 185950507832456), (3108068099790711, 201781753497202),
  (3293672130634207, 167819355344585), (3464589371609371, 185940534929883),
  (3663603137221290, 201767721721282), (3849175375370744, 167742357915467),
  (4019918305951199, 185674771648606), (4218612108016176, 201394412633078),
  (4403359150017142, 165764464414862), (4569630620179788, 178884758103566),
  (4760392860920631, 192630440655679), (4932796195686991, 144906663702384),
  (5067203804313009, 144906663702384), (5239607139079369, 192630440655679),
  (5430369379820211, 178884758103566), (5596640849982857, 165764464414862),
  (5781387891983824, 201394412633078), (5980081694048800, 185674771648606),
  (6150824624629256, 167742357915467), (6336396862778709, 201767721721282),
  (6535410628390629, 185940534929883), (6706327869365792, 167819355344585),
  (6891931900209288, 201781753497202), (7090957679285486, 185950507832456),
  (7261881459066500, 167822239147358), (7447486673575843, 201782267866526),
  (7646512886619790, 185950852177715), (7817436807205960, 167822133355588),
  (8003041749736851, 201781888382361), (8202067417911755, 185949853089652),
  (8372987762256319, 167814784041883), (8558581830919454, 201768180994566),
  (8757588216984595, 185915099328855), (8928385615024492, 167562661039263),
  (9113607264060345, 201299764673488), (9311963041759814, 184767158716261),
  (9478746612542858, 159340085301144), (9652168679929609, 187208100212278),
  (9835332999040075, 167516361438655), (9966054205081261, 85440827835358)]

/-- precomputed_ggq_rules_optimal.cpp L2518-2578, entry 18 of `S_8_2_precomputed`. -/
def S_8_2_precomputed_row18 : List (Int × Int) := [
  (32159174133546, 80943942159822), (156000316698894, 158699710836640), (329524408487780, 177355042306396),
  (493818998643718, 150953765022311), (651824486754360, 175042571415990), (839740486680876, 190705040217810),
  (1015213627874605, 158743573620676), (1177021689185812, 176130094116646),
  (1365554054950556, 191148803069467), (1541380014786546, 158982427107855),
  (1703304551807483, 176163019133420), (1891855185317482, 191161789580397),
  (2067691447992884, 158989392717880), (2229619380054483, 176163976344150),
  (2418170542652707, 191162164155244), (2594007097155344, 158989575711399),
  (2755935083178087, 176163935765936), (2944486178728377, 191162078753260),
  (3120322523305757, 158989051856094), (3282249313052210, 176162108336717),
  (3470798206802352, 191159506792230), (3646628718913089, 158974921778587),
  (3808523523096344, 176113342442216), (3997013680231520, 191090914774531),
  (4172689414049255, 158600670890250), (4333736694011543, 174821228635625),
  (4520675686385121, 189291505319407), (4692736691237663, 150385647506306),
  (4836270211137080, 149979977051893), (5000000000000000, 171540445161691),
  (5163729788862920, 149979977051893), (5307263308762337, 150385647506306),
  (5479324313614878, 189291505319407), (5666263305988456, 174821228635625),
  (5827310585950745, 158600670890250), (6002986319768480, 191090914774531),
  (6191476476903656, 176113342442216), (6353371281086910, 158974921778587),
  (6529201793197648, 191159506792230), (6717750686947790, 176162108336717),
  (6879677476694243, 158989051856094), (7055513821271623, 191162078753260),
  (7244064916821912, 176163935765936), (7405992902844656, 158989575711399),
  (7581829457347292, 191162164155244), (7770380619945517, 176163976344150),
  (7932308552007115, 158989392717880), (8108144814682517, 191161789580397),
  (8296695448192517, 176163019133420), (8458619985213454, 158982427107855),
  (8634445945049444, 191148803069467), (8822978310814188, 176130094116646),
  (8984786372125394, 158743573620676), (9160259513319124, 190705040217810),
  (9348175513245639, 175042571415990), (9506181001356282, 150953765022311),
  (9670475591512220, 177355042306396), (9843999683301105, 158699710836640), (9967840825866454, 80943942159822)]

/-- precomputed_ggq_rules_optimal.cpp L2579-2642, entry 19 of `S_8_2_precomputed`. -/
def S_8_2_precomputed_row19 : List (Int × Int) := [
  (30551215426869, 76896745051833), (148200300863953, 150764725294812), (313048188063398, 168487290191081),
  (469128048711552, 143406076771227), (619233262416734, 166290442845299), (797753462347053, 181169788207070),
  (964452946481439, 150806394940474), (1118170604728969, 167323589413686), (1297276352208935, 181591362920033),
  (1464311014062288, 151033305774661), (1618139324282426, 167354868253357),
  (1797262426209205, 181603700209163), (1964306875995292, 151039923674243),
  (2118138412794427, 167355779570855), (2297262019724791, 181604058823237),
  (2464306753024392, 151040112727299), (2618138375513803, 167355793509499),
  (2797261981974387, 181604051541077), (2964306683331820, 151040020843706),
  (3118138087870633, 167355457822256), (3297261289467844, 181603578452080),
  (3464304917468633, 151037419973507), (3618130434425943, 167346481459403),
  (3797242823489150, 181590949558022), (3964257837830694, 150968122128679),
  (4117926475355425, 167107294484400), (4296750897214267, 181254971370027),
  (4463023235015340, 149188017973516), (4612667558161791, 160996282293228),
  (4784353574828560, 173367396590118), (4939516576118290, 130415997332150),
  (5060483423881711, 130415997332150), (5215646425171440, 173367396590118),
  (5387332441838210, 160996282293228), (5536976764984660, 149188017973516),
  (5703249102785733, 181254971370027), (5882073524644577, 167107294484400),
  (6035742162169306, 150968122128679), (6202757176510851, 181590949558022),
  (6381869565574058, 167346481459403), (6535695082531368, 151037419973507),
  (6702738710532157, 181603578452080), (6881861912129368, 167355457822256),
  (7035693316668180, 151040020843706), (7202738018025614, 181604051541077),
  (7381861624486197, 167355793509499), (7535693246975609, 151040112727299),
  (7702737980275209, 181604058823237), (7881861587205573, 167355779570855),
  (8035693124004708, 151039923674243), (8202737573790796, 181603700209163),
  (8381860675717574, 167354868253357), (8535688985937713, 151033305774661),
  (8702723647791064, 181591362920033), (8881829395271030, 167323589413686),
  (9035547053518562, 150806394940474), (9202246537652947, 181169788207070),
  (9380766737583267, 166290442845299), (9530871951288449, 143406076771227),
  (9686951811936603, 168487290191081), (9851799699136047, 150764725294812), (9969448784573132, 76896745051833)]

/-- precomputed_ggq_rules_optimal.cpp L2643-2709, entry 20 of `S_8_2_precomputed`. -/
def S_8_2_precomputed_row20 : List (Int × Int) := [
  (29096395644637, 73234995287460), (141143143679956, 143585452661726), (298141131488952, 160464085896268),
  (446788617820530, 136577215972603), (589745964206430, 158371850328876), (759765202235329, 172542655435333),
  (918526615696713, 143625138038701), (1064924385456613, 159355799442135), (1235501287819123, 172944155162682),
  (1394581918157341, 143841243599012), (1541085070757221, 159385588826859),
  (1711678501180708, 172955904980999), (1870768453403048, 143847546465722),
  (2017274679173443, 159386457111350), (2187868590990063, 172956247029039),
  (2346958814383807, 143847729323099), (2493465128117498, 159386480072855),
  (2664059051154970, 172956253722559), (2823149275037379, 143847716701821),
  (2969655550711194, 159386418810176), (3140249399474440, 172956166781140),
  (3299339425750779, 143847237549207), (3445844616549626, 159384764707038),
  (3616436472811642, 172953839487131), (3775521221870914, 143834453042300),
  (3921997473277021, 159340643162629), (4092536186875860, 172891780034345),
  (4251480898425434, 143495845091310), (4397190342200902, 158171587813203),
  (4566325621015101, 171263742908042), (4721999863500740, 136063204886662),
  (4851863524362119, 135696169713618), (5000000000000000, 155203259908197),
  (5148136475637880, 135696169713618), (5278000136499259, 136063204886662),
  (5433674378984898, 171263742908042), (5602809657799097, 158171587813203),
  (5748519101574566, 143495845091310), (5907463813124140, 172891780034345),
  (6078002526722979, 159340643162629), (6224478778129086, 143834453042300),
  (6383563527188357, 172953839487131), (6554155383450372, 159384764707038),
  (6700660574249221, 143847237549207), (6859750600525558, 172956166781140),
  (7030344449288806, 159386418810176), (7176850724962620, 143847716701821),
  (7335940948845029, 172956253722559), (7506534871882502, 159386480072855),
  (7653041185616193, 143847729323099), (7812131409009936, 172956247029039),
  (7982725320826557, 159386457111350), (8129231546596951, 143847546465722),
  (8288321498819291, 172955904980999), (8458914929242778, 159385588826859),
  (8605418081842658, 143841243599012), (8764498712180876, 172944155162682),
  (8935075614543386, 159355799442135), (9081473384303287, 143625138038701),
  (9240234797764670, 172542655435333), (9410254035793570, 158371850328876),
  (9553211382179470, 136577215972603), (9701858868511047, 160464085896268),
  (9858856856320044, 143585452661726), (9970903604355363, 73234995287460)]

/-- precomputed_ggq_rules_optimal.cpp L2710-2779, entry 21 of `S_8_2_precomputed`. -/
def S_8_2_precomputed_row21 : List (Int × Int) := [
  (27773832206245, 69906131865303), (134727546239958, 137058841177102), (284589261875818, 153170263810074),
  (426480044283234, 130369160701123), (562939329469777, 151173129859385), (725230420315549, 164699807461005),
  (876775405892336, 137096722673334), (1016518731572305, 152112354013045), (1179342138373001, 165083057200879),
  (1331191830968884, 137303005254359), (1471035749361392, 152140789337339),
  (1633874932950592, 165094272940081), (1785733523716609, 137309021646552),
  (1925580375634030, 152141618221387), (2088420018815604, 165094599534797),
  (2240278868640955, 137309196710464), (2380125805696401, 152141641927647),
  (2542965461743125, 165094608440402), (2694824317741876, 137309198489437),
  (2834671249764885, 152141631165951), (2997510892391446, 165094592586979),
  (3149369712026971, 137309110006441), (3289216443498311, 152141325313423),
  (3452055717688939, 165094162237227), (3603913561332417, 137306745434785),
  (3743754940386625, 152133164963690), (3906584384989871, 165082681416619),
  (4058416216209643, 137243747389834), (4198114977595823, 151915722258563),
  (4360682633831144, 164777246700032), (4511839304559399, 135625470885018),
  (4647879598328901, 146360256630208), (4803957795298691, 157606724172835),
  (4945015069198445, 118559997574682), (5054984930801555, 118559997574682),
  (5196042204701310, 157606724172835), (5352120401671100, 146360256630208),
  (5488160695440601, 135625470885018), (5639317366168857, 164777246700032),
  (5801885022404177, 151915722258563), (5941583783790357, 137243747389834),
  (6093415615010129, 165082681416619), (6256245059613376, 152133164963690),
  (6396086438667583, 137306745434785), (6547944282311061, 165094162237227),
  (6710783556501689, 152141325313423), (6850630287973030, 137309110006441),
  (7002489107608554, 165094592586979), (7165328750235116, 152141631165951),
  (7305175682258124, 137309198489437), (7457034538256876, 165094608440402),
  (7619874194303599, 152141641927647), (7759721131359044, 137309196710464),
  (7911579981184398, 165094599534797), (8074419624365972, 152141618221387),
  (8214266476283392, 137309021646552), (8366125067049409, 165094272940081),
  (8528964250638609, 152140789337339), (8668808169031116, 137303005254359),
  (8820657861626998, 165083057200879), (8983481268427695, 152112354013045),
  (9123224594107664, 137096722673334), (9274769579684451, 164699807461005),
  (9437060670530224, 151173129859385), (9573519955716767, 130369160701123),
  (9715410738124183, 153170263810074), (9865272453760042, 137058841177102), (9972226167793756, 69906131865303)]

/-- precomputed_ggq_rules_optimal.cpp L2780-2852, entry 22 of `S_8_2_precomputed`. -/
def S_8_2_precomputed_row22 : List (Int × Int) := [
  (26566274284234, 66866734827681), (128869826838221, 131099761125924), (272215815707305, 146510687122680),
  (407937433662224, 124700936322813), (538463706449353, 144600385082891), (693698662910527, 157538946267049),
  (838654736070934, 131135995600585), (972322264982220, 145498773403800), (1128066393226386, 157905532974779),
  (1273313925274680, 131333309373875), (1407077673302613, 145525972410113),
  (1562836892388518, 157916261073802), (1708092935731469, 131339064187399),
  (1841859489747904, 145526765268148), (1997619148458872, 157916573486229),
  (2142875439637355, 131339231735892), (2276642075307591, 145526788275194),
  (2432401746723664, 157916582471040), (2577658044864930, 131339236000292),
  (2711424681522559, 145526786825691), (2867184350755585, 157916579750684),
  (3012440642336605, 131339219739383), (3146207241934141, 145526730237560),
  (3301966842989698, 157916500112231), (3447222953943777, 131338782114283),
  (3580988562936046, 145525219950474), (3736746344740811, 157914375184127),
  (3881997637360325, 131327109299612), (4015736823426829, 145484935061547),
  (4171446083669256, 157857712205278), (4316569515953655, 131017945518156),
  (4449608573313866, 144417536699012), (4604036436579005, 156371243524734),
  (4746173788413719, 124231621853039), (4864744957026284, 123896502781999),
  (5000000000000000, 141707324264006), (5135255042973716, 123896502781999),
  (5253826211586281, 124231621853039), (5395963563420995, 156371243524734),
  (5550391426686133, 144417536699012), (5683430484046345, 131017945518156),
  (5828553916330743, 157857712205278), (5984263176573170, 145484935061547),
  (6118002362639675, 131327109299612), (6263253655259189, 157914375184127),
  (6419011437063954, 145525219950474), (6552777046056223, 131338782114283),
  (6698033157010302, 157916500112231), (6853792758065859, 145526730237560),
  (6987559357663394, 131339219739383), (7132815649244415, 157916579750684),
  (7288575318477439, 145526786825691), (7422341955135070, 131339236000292),
  (7567598253276336, 157916582471040), (7723357924692410, 145526788275194),
  (7857124560362645, 131339231735892), (8002380851541129, 157916573486229),
  (8158140510252097, 145526765268148), (8291907064268531, 131339064187399),
  (8437163107611482, 157916261073802), (8592922326697388, 145525972410113),
  (8726686074725321, 131333309373875), (8871933606773613, 157905532974779),
  (9027677735017779, 145498773403800), (9161345263929066, 131135995600585),
  (9306301337089474, 157538946267049), (9461536293550646, 144600385082891),
  (9592062566337777, 124700936322813), (9727784184292696, 146510687122680),
  (9871130173161780, 131099761125924), (9973433725715767, 66866734827681)]

/-- precomputed_ggq_rules_optimal.cpp L2853-2928, entry 23 of `S_8_2_precomputed`. -/
def S_8_2_precomputed_row23 : List (Int × Int) := [
  (25459346189058, 64080620876528), (123500250719961, 125637271079010), (260873490052834, 140406075159235),
  (390940040592964, 119505063976029), (516027718680630, 138575369037770), (664794551955921, 150974823505922),
  (803710788734645, 125671995783895), (931808837274631, 139436324511979), (1081063626841960, 151326135767502),
  (1220259178388253, 125861088149990), (1348449436915081, 139462390226448),
  (1497718688539180, 151336416862520), (1636922396743129, 125866603180284),
  (1765115344343781, 139463150051035), (1914385017278008, 151336716261003),
  (2053588962998357, 125866763765395), (2181781988890872, 139463172160901),
  (2331051674074842, 151336724957902), (2470255626663935, 125866768327160),
  (2598448654578009, 139463172411215), (2747718339644701, 151336724657535),
  (2886922291178259, 125866765418133), (3015115312265735, 139463161920879),
  (3164384984683817, 151336709878789), (3303588902688911, 125866684176535),
  (3431781739872906, 139462881537850), (3581051074547952, 151336315384340),
  (3720254097887977, 125864516648669), (3848442028687724, 139455401216731),
  (3997702352907375, 151325791298573), (4136881531525504, 125806768440684),
  (4264938729462837, 139256078737017), (4413959081011881, 151045809475029),
  (4552519362512782, 124323348311267), (4677222965134825, 134163568577691),
  (4820294645690466, 144472830491766), (4949597146765241, 108679997776792),
  (5050402853234759, 108679997776792), (5179705354309534, 144472830491766),
  (5322777034865174, 134163568577691), (5447480637487218, 124323348311267),
  (5586040918988118, 151045809475029), (5735061270537163, 139256078737017),
  (5863118468474495, 125806768440684), (6002297647092625, 151325791298573),
  (6151557971312276, 139455401216731), (6279745902112023, 125864516648669),
  (6418948925452048, 151336315384340), (6568218260127093, 139462881537850),
  (6696411097311088, 125866684176535), (6835615015316182, 151336709878789),
  (6984884687734265, 139463161920879), (7113077708821740, 125866765418133),
  (7252281660355299, 151336724657535), (7401551345421989, 139463172411215),
  (7529744373336065, 125866768327160), (7668948325925157, 151336724957902),
  (7818218011109127, 139463172160901), (7946411037001644, 125866763765395),
  (8085614982721993, 151336716261003), (8234884655656218, 139463150051035),
  (8363077603256871, 125866603180284), (8502281311460820, 151336416862520),
  (8651550563084919, 139462390226448), (8779740821611748, 125861088149990),
  (8918936373158040, 151326135767502), (9068191162725370, 139436324511979),
  (9196289211265355, 125671995783895), (9335205448044077, 150974823505922),
  (9483972281319369, 138575369037770), (9609059959407036, 119505063976029),
  (9739126509947167, 140406075159235), (9876499749280039, 125637271079010), (9974540653810943, 64080620876528)]

/-- precomputed_ggq_rules_optimal.cpp L2929-3007, entry 24 of `S_8_2_precomputed`. -/
def S_8_2_precomputed_row24 : List (Int × Int) := [
  (24440972341495, 61517396041466), (118560240691163, 120611780235850), (250438550450720, 134789832152866),
  (375302438969246, 114724861416988), (495386609933405, 133032354276259), (638202769877685, 144935830565685),
  (771562357185260, 120645115952540), (894536483783646, 133858871531500), (1037821081768283, 145273090336802),
  (1171448811252726, 120826644623995), (1294511459438492, 133883894617406),
  (1437809940997648, 145282960188042), (1571445500873491, 120831939053201),
  (1694510730570410, 133884624049439), (1837809616587803, 145283247611189),
  (1971445404480759, 120832093218221), (2094510709345363, 133884645286341),
  (2237809607136279, 145283255976295), (2371445401659704, 120832097685886),
  (2494510708665040, 133884645831616), (2637809606710734, 145283256117037),
  (2771445401194014, 120832097250972), (2894510706982762, 133884643897643),
  (3037809602687130, 145283253377725), (3171445390947297, 120832082164038),
  (3294510662578886, 133884591819080), (3437809495550289, 145283180103459),
  (3571445117628205, 120831679545251), (3694509477901148, 133883202354452),
  (3837806637161539, 145281225169403), (3971437826371497, 120820940555646),
  (4094477877552682, 133846140256624), (4237730396975715, 145229095228856),
  (4371243954677362, 120536509876704), (4493639887448757, 132864133763091),
  (4635713521652685, 143861544042755), (4766479885340622, 114293092104796),
  (4875565360464181, 113984782559439), (5000000000000000, 130370738322886),
  (5124434639535820, 113984782559439), (5233520114659378, 114293092104796),
  (5364286478347315, 143861544042755), (5506360112551243, 132864133763091),
  (5628756045322638, 120536509876704), (5762269603024285, 145229095228856),
  (5905522122447318, 133846140256624), (6028562173628503, 120820940555646),
  (6162193362838461, 145281225169403), (6305490522098852, 133883202354452),
  (6428554882371794, 120831679545251), (6562190504449711, 145283180103459),
  (6705489337421113, 133884591819080), (6828554609052704, 120832082164038),
  (6962190397312870, 145283253377725), (7105489293017239, 133884643897643),
  (7228554598805986, 120832097250972), (7362190393289266, 145283256117037),
  (7505489291334960, 133884645831616), (7628554598340296, 120832097685886),
  (7762190392863721, 145283255976295), (7905489290654637, 133884645286341),
  (8028554595519242, 120832093218221), (8162190383412197, 145283247611189),
  (8305489269429590, 133884624049439), (8428554499126508, 120831939053201),
  (8562190059002353, 145282960188042), (8705488540561508, 133883894617406),
  (8828551188747273, 120826644623995), (8962178918231718, 145273090336802),
  (9105463516216353, 133858871531500), (9228437642814740, 120645115952540),
  (9361797230122315, 144935830565685), (9504613390066595, 133032354276259),
  (9624697561030755, 114724861416988), (9749561449549280, 134789832152866),
  (9881439759308838, 120611780235850), (9975559027658506, 61517396041466)]

/-- precomputed_ggq_rules_optimal.cpp L3008-3089, entry 25 of `S_8_2_precomputed`. -/
def S_8_2_precomputed_row25 : List (Int × Int) := [
  (23500934943746, 59151342347564), (114000231433810, 115972865611394), (240806298510308, 129605607839294),
  (360867729778121, 110312366747104), (476333278782120, 127915725265634), (613656509497774, 139361375543928),
  (741886881908904, 116004919185134), (860131234407352, 128710453395673), (997904886315657, 139685663785387),
  (1126393087743006, 116179465984611), (1244722557152399, 128734514055201),
  (1382509558651591, 139695154026968), (1511005289301450, 116184556781948),
  (1629337240933157, 128735215432235), (1767124631334596, 139695430395491),
  (1895620581231933, 116184705018160), (2013952605141655, 128735235854460),
  (2151740006866351, 139695438441853), (2280235963145923, 116184709330428),
  (2398567989151244, 128735236435483), (2536355391189242, 139695438656986),
  (2664851347611207, 116184709350747), (2783183373439324, 128735236089205),
  (2920970775048947, 139695438152239), (3049466730316105, 116184706543474),
  (3167798749783253, 128735226389008), (3305586139707914, 139695424503696),
  (3434082064020467, 116184631547677), (3552413913728822, 128734967573415),
  (3690200991890411, 139695060354781), (3818696090358131, 116182630752620),
  (3937023411096360, 128728062661599), (4074802171914499, 139685345814068),
  (4203275259869696, 116129324714478), (4321481904119542, 128544072680323),
  (4459039151703276, 139426901053873), (4586940950011799, 114760013825785),
  (4702051967816762, 123843294071715), (4834118134483507, 133359535838553),
  (4953474289321761, 100319997947808), (5046525710678239, 100319997947808),
  (5165881865516493, 133359535838553), (5297948032183238, 123843294071715),
  (5413059049988201, 114760013825785), (5540960848296725, 139426901053873),
  (5678518095880458, 128544072680323), (5796724740130305, 116129324714478),
  (5925197828085501, 139685345814068), (6062976588903640, 128728062661599),
  (6181303909641871, 116182630752620), (6309799008109589, 139695060354781),
  (6447586086271179, 128734967573415), (6565917935979534, 116184631547677),
  (6694413860292086, 139695424503696), (6832201250216748, 128735226389008),
  (6950533269683895, 116184706543474), (7079029224951053, 139695438152239),
  (7216816626560677, 128735236089205), (7335148652388792, 116184709350747),
  (7463644608810758, 139695438656986), (7601432010848755, 128735236435483),
  (7719764036854078, 116184709330428), (7848259993133649, 139695438441853),
  (7986047394858345, 128735235854460), (8104379418768067, 116184705018160),
  (8232875368665404, 139695430395491), (8370662759066845, 128735215432235),
  (8488994710698550, 116184556781948), (8617490441348410, 139695154026968),
  (8755277442847602, 128734514055201), (8873606912256995, 116179465984611),
  (9002095113684344, 139685663785387), (9139868765592648, 128710453395673),
  (9258113118091096, 116004919185134), (9386343490502226, 139361375543928),
  (9523666721217880, 127915725265634), (9639132270221880, 110312366747104),
  (9759193701489693, 129605607839294), (9885999768566190, 115972865611394), (9976499065056256, 59151342347564)]

/-- precomputed_ggq_rules_optimal.cpp L3090-3174, entry 26 of `S_8_2_precomputed`. -/
def S_8_2_precomputed_row26 : List (Int × Int) := [
  (22630529945829, 56960551890247), (109778000639966, 111677574292454), (231887546713630, 124805400141542),
  (347502258304857, 106226723534248), (458691305493893, 123178105811351), (590928490627486, 134199843116375),
  (714409589986352, 111708440696796), (828274522021894, 123943399566204), (960945446081744, 134512120682225),
  (1084674825234006, 111876522799996), (1198621721702310, 123966569090195),
  (1331305500923755, 134521259433378), (1455042130438436, 111881425049288),
  (1568991417194905, 123967244490316), (1701675570914828, 134521525566050),
  (1825412411556757, 111881567795384), (1939361767914538, 123967264156559),
  (2072045932538815, 134521533314957), (2195782779327866, 111881571951006),
  (2309732137710573, 123967264726647), (2442416302649299, 134521533537014),
  (2566153149609243, 111881572052397), (2680102508006525, 123967264675577),
  (2812786672872894, 134521533448270), (2936523519621883, 111881571532201),
  (3050472876835405, 123967262868673), (3183157039524904, 134521530905492),
  (3306893880506692, 111881557559397), (3420843206091547, 123967214647310),
  (3553527310694705, 134521463058764), (3677263997803892, 111881184764124),
  (3791212479538099, 123965928105974), (3923895034408832, 134519652934632),
  (4047627617010645, 111871241255228), (4161553590326557, 123931611348726),
  (4294194812014551, 134471384471163), (4417818476553113, 111607879515467),
  (4531148043934034, 123022346076936), (4662697705233967, 133205133372921),
  (4783777671611686, 105826937134070), (4884782741170537, 105541465332814),
  (5000000000000000, 120713646595265), (5115217258829462, 105541465332814),
  (5216222328388312, 105826937134070), (5337302294766032, 133205133372921),
  (5468851956065965, 123022346076936), (5582181523446886, 111607879515467),
  (5705805187985449, 134471384471163), (5838446409673442, 123931611348726),
  (5952372382989355, 111871241255228), (6076104965591167, 134519652934632),
  (6208787520461900, 123965928105974), (6322736002196109, 111881184764124),
  (6446472689305295, 134521463058764), (6579156793908453, 123967214647310),
  (6693106119493307, 111881557559397), (6816842960475095, 134521530905492),
  (6949527123164594, 123967262868673), (7063476480378116, 111881571532201),
  (7187213327127105, 134521533448270), (7319897491993475, 123967264675577),
  (7433846850390757, 111881572052397), (7557583697350700, 134521533537014),
  (7690267862289426, 123967264726647), (7804217220672133, 111881571951006),
  (7927954067461184, 134521533314957), (8060638232085462, 123967264156559),
  (8174587588443242, 111881567795384), (8298324429085171, 134521525566050),
  (8431008582805095, 123967244490316), (8544957869561562, 111881425049288),
  (8668694499076244, 134521259433378), (8801378278297690, 123966569090195),
  (8915325174765993, 111876522799996), (9039054553918257, 134512120682225),
  (9171725477978104, 123943399566204), (9285590410013648, 111708440696796),
  (9409071509372513, 134199843116375), (9541308694506105, 123178105811351),
  (9652497741695143, 106226723534248), (9768112453286371, 124805400141542),
  (9890221999360034, 111677574292454), (9977369470054172, 56960551890247)]

/-- precomputed_ggq_rules_optimal.cpp L3175-3262, entry 27 of `S_8_2_precomputed`. -/
def S_8_2_precomputed_row27 : List (Int × Int) := [
  (21822296733478, 54926246465595), (105857357759967, 107689089496295), (223605848616714, 120348064422201),
  (335091463365398, 102432911979454), (442309473154825, 118778887746660), (569823901676504, 129406991576504),
  (688894961772553, 107718853529053), (798693289092541, 119516849581697), (926625965864539, 129708116372145),
  (1045936438618506, 107880932699996), (1155813803070085, 119539191622688),
  (1283758875890764, 129716928739329), (1403076340065636, 107885659868957),
  (1512956009437946, 119539842901379), (1640901443382162, 129717185367266),
  (1760219111144031, 107885797517000), (1870098847631941, 119539861865330),
  (1998044292091158, 129717192839531), (2117361965780846, 107885801524778),
  (2227241704222659, 119539862417032), (2355187148987472, 129717193056435),
  (2474504822848248, 107885801637810), (2584384561338661, 119539862420455),
  (2712330006097146, 129717193044965), (2831647679922568, 107885801543377),
  (2941527418193190, 119539862083301), (3069472862545243, 129717192570121),
  (3188790535293464, 107885798933325), (3298670267655863, 119539853075521),
  (3426615701157343, 129717179896294), (3545933345161860, 107885729294275),
  (3655812919891048, 119539612746743), (3783758063898238, 129716841758011),
  (3903074941046835, 107883871413148), (4012950310303763, 119533201042913),
  (4140887731063463, 129707821113063), (4260184169879003, 107834372949158),
  (4369947482396717, 119362353203157), (4497679212295898, 129467836692882),
  (4616445167868098, 106562869981086), (4723333970115565, 114997344495164),
  (4845966839163257, 123833854707228), (4956797554370206, 93154283808679), (5043202445629793, 93154283808679),
  (5154033160836743, 123833854707228), (5276666029884435, 114997344495164),
  (5383554832131900, 106562869981086), (5502320787704101, 129467836692882),
  (5630052517603282, 119362353203157), (5739815830120997, 107834372949158),
  (5859112268936536, 129707821113063), (5987049689696237, 119533201042913),
  (6096925058953165, 107883871413148), (6216241936101762, 129716841758011),
  (6344187080108951, 119539612746743), (6454066654838139, 107885729294275),
  (6573384298842656, 129717179896294), (6701329732344137, 119539853075521),
  (6811209464706535, 107885798933325), (6930527137454757, 129717192570121),
  (7058472581806809, 119539862083301), (7168352320077431, 107885801543377),
  (7287669993902854, 129717193044965), (7415615438661338, 119539862420455),
  (7525495177151752, 107885801637810), (7644812851012528, 129717193056435),
  (7772758295777341, 119539862417032), (7882638034219154, 107885801524778),
  (8001955707908840, 129717192839531), (8129901152368058, 119539861865330),
  (8239780888855968, 107885797517000), (8359098556617838, 129717185367266),
  (8487043990562053, 119539842901379), (8596923659934365, 107885659868957),
  (8716241124109235, 129716928739329), (8844186196929915, 119539191622688),
  (8954063561381493, 107880932699996), (9073374034135462, 129708116372145),
  (9201306710907458, 119516849581697), (9311105038227445, 107718853529053),
  (9430176098323495, 129406991576504), (9557690526845174, 118778887746660),
  (9664908536634602, 102432911979454), (9776394151383285, 120348064422201),
  (9894142642240032, 107689089496295), (9978177703266522, 54926246465595)]

/-- precomputed_ggq_rules_optimal.cpp L3263-3353, entry 28 of `S_8_2_precomputed`. -/
def S_8_2_precomputed_row28 : List (Int × Int) := [
  (21069803742668, 53032237966781), (102207104044106, 103975672617112), (215895302112690, 116198131166263),
  (323536585318315, 98900742600852), (427057422356383, 114683064031258), (550174801618694, 124944681522142),
  (665139963090741, 104004410303913), (771152141192798, 115395578906466), (894673346351968, 125235422704140),
  (1009869664873040, 104160900537928), (1115958154688358, 115417150532250),
  (1239491328446255, 125243931196593), (1354694397304752, 104165464701062),
  (1460785112560776, 115417779353056), (1584318634989675, 125244178975292),
  (1699521900414929, 104165597602625), (1805612680472231, 115417797663092),
  (1929146213053562, 125244186189912), (2044349484202272, 104165601472311),
  (2150440266146342, 115417798196138), (2273973799023176, 125244186399856),
  (2389177070338253, 104165601584301), (2495267852335712, 115417798209298),
  (2618801385218306, 125244186402647), (2734004656530692, 104165601569306),
  (2840095438488383, 115417798146679), (2963628971295252, 125244186314085),
  (3078832242406521, 104165601081800), (3184923023260537, 115417796463950),
  (3308456554040423, 125244183946498), (3423659819782091, 104165588072545),
  (3529750571188681, 115417751568186), (3653284047888174, 125244120778850),
  (3768487170369141, 104165240987288), (3874577136121679, 115416553753838),
  (3998109169966844, 125242435490865), (4113308471009911, 104155983237626),
  (4219377480648864, 115384603669503), (4342871031875616, 125197495886945),
  (4457968926446002, 103910784376469), (4563482661593756, 114538046347492),
  (4685959932459211, 124018572450651), (4798689556328122, 98528527676548), (4892728759020845, 98262743585724),
  (5000000000000000, 112388567519729), (5107271240979154, 98262743585724), (5201310443671878, 98528527676548),
  (5314040067540788, 124018572450651), (5436517338406244, 114538046347492),
  (5542031073553998, 103910784376469), (5657128968124383, 125197495886945),
  (5780622519351135, 115384603669503), (5886691528990089, 104155983237626),
  (6001890830033156, 125242435490865), (6125422863878321, 115416553753838),
  (6231512829630860, 104165240987288), (6346715952111825, 125244120778850),
  (6470249428811318, 115417751568186), (6576340180217909, 104165588072545),
  (6691543445959577, 125244183946498), (6815076976739463, 115417796463950),
  (6921167757593478, 104165601081800), (7036371028704748, 125244186314085),
  (7159904561511619, 115417798146679), (7265995343469307, 104165601569306),
  (7381198614781694, 125244186402647), (7504732147664288, 115417798209298),
  (7610822929661747, 104165601584301), (7726026200976824, 125244186399856),
  (7849559733853657, 115417798196138), (7955650515797729, 104165601472311),
  (8070853786946437, 125244186189912), (8194387319527768, 115417797663092),
  (8300478099585070, 104165597602625), (8415681365010326, 125244178975292),
  (8539214887439224, 115417779353056), (8645305602695247, 104165464701062),
  (8760508671553745, 125243931196593), (8884041845311642, 115417150532250),
  (8990130335126960, 104160900537928), (9105326653648032, 125235422704140),
  (9228847858807201, 115395578906466), (9334860036909258, 104004410303913),
  (9449825198381305, 124944681522142), (9572942577643616, 114683064031258), (9676463414681684, 98900742600852),
  (9784104697887310, 116198131166263), (9897792895955894, 103975672617112), (9978930196257332, 53032237966781)]

/-- precomputed_ggq_rules_optimal.cpp L3354-3447, entry 29 of `S_8_2_precomputed`. -/
def S_8_2_precomputed_row29 : List (Int × Int) := [
  (20367476951246, 51264496701222), (98800200575969, 100509816863208), (208698792042267, 112324860127388),
  (312752032474371, 95604051180823), (412822174944504, 110860295230216), (531835641564737, 120779858804738),
  (642968630987716, 100537596627116), (745447069819705, 111549059609584), (864850901473569, 121060908614002),
  (976207342710605, 100688870519997), (1078759549532079, 111569912181175), (1198174950831380, 121069133490040),
  (1309537917394594, 100693282544360), (1412092275475417, 111570520041288),
  (1531508013823352, 121069373009449), (1642871170401099, 100693411015872),
  (1745425591123159, 111570537740991), (1864841339285116, 121069379983585),
  (1976204501395543, 100693414756588), (2078758923941526, 111570538256339),
  (2198174672389218, 121069380186629), (2309537834660688, 100693414865379),
  (2412092257259487, 111570538270902), (2531508005714967, 121069380191918),
  (2642871167989715, 100693414865128), (2745425590582314, 111570538259528),
  (2864841339023809, 121069380175473), (2976204501261006, 100693414773911),
  (3078758923646964, 111570537944427), (3198174671708888, 121069379732118),
  (3309537832940565, 100693412337773), (3412092249812139, 111570529537153),
  (3531507987746853, 121069367903208), (3642871122151069, 100693347341323),
  (3745425391898312, 111570305230293), (3864840859638355, 121069052307477),
  (3976203278310380, 100691613318938), (4078753622950179, 111564320973385),
  (4198161882325899, 121060633038859), (4309505225220403, 100645414752547),
  (4411950983570270, 111404862989613), (4531167264809505, 120836647580023), (4642015490010226, 99458678649013),
  (4741778372107860, 107330854862153), (4856235716552373, 115578264393412), (4959677717412193, 86943998221434),
  (5040322282587807, 86943998221434), (5143764283447627, 115578264393412), (5258221627892139, 107330854862153),
  (5357984509989774, 99458678649013), (5468832735190494, 120836647580023), (5588049016429729, 111404862989613),
  (5690494774779596, 100645414752547), (5801838117674101, 121060633038859),
  (5921246377049821, 111564320973385), (6023796721689620, 100691613318938),
  (6135159140361645, 121069052307477), (6254574608101688, 111570305230293),
  (6357128877848930, 100693347341323), (6468492012253146, 121069367903208),
  (6587907750187861, 111570529537153), (6690462167059434, 100693412337773),
  (6801825328291112, 121069379732118), (6921241076353035, 111570537944427),
  (7023795498738995, 100693414773911), (7135158660976192, 121069380175473),
  (7254574409417686, 111570538259528), (7357128832010285, 100693414865128),
  (7468491994285033, 121069380191918), (7587907742740512, 111570538270902),
  (7690462165339312, 100693414865379), (7801825327610782, 121069380186629),
  (7921241076058474, 111570538256339), (8023795498604457, 100693414756588),
  (8135158660714885, 121069379983585), (8254574408876840, 111570537740991),
  (8357128829598900, 100693411015872), (8468491986176648, 121069373009449),
  (8587907724524583, 111570520041288), (8690462082605406, 100693282544360),
  (8801825049168620, 121069133490040), (8921240450467921, 111569912181175),
  (9023792657289395, 100688870519997), (9135149098526431, 121060908614002),
  (9254552930180294, 111549059609584), (9357031369012283, 100537596627116),
  (9468164358435263, 120779858804738), (9587177825055496, 110860295230216), (9687247967525628, 95604051180823),
  (9791301207957733, 112324860127388), (9901199799424031, 100509816863208), (9979632523048755, 51264496701222)]

/-- precomputed_ggq_rules_optimal.cpp L3448-3544, entry 30 of `S_8_2_precomputed`. -/
def S_8_2_precomputed_row30 : List (Int × Int) := [
  (19710461565722, 49610803259247), (95613097331583, 97267564706331), (201966572944129, 108701477542633),
  (302663257233263, 92520049529829), (399505330591455, 107284156674403), (514679653127165, 116883734327165),
  (622227707407468, 97294448348822), (721400390148102, 107950702847984), (836952485297003, 117155718013551),
  (944716783268328, 97440842438706), (1043960854385883, 107970882755976), (1159524145965851, 117163677571006),
  (1267294758768961, 97445112139703), (1366540911750403, 107971471007698), (1482104529506470, 117163909363983),
  (1589875326194612, 97445236466973), (1689121539796606, 107971488136444), (1804685167050113, 117163916113148),
  (1912455969092464, 97445240087025), (2011702184459552, 107971488635180), (2127265811989593, 117163916309659),
  (2235036614187833, 97445240192406), (2334282829606261, 107971488649619), (2449846457144255, 117163916315265),
  (2557617259346769, 97445240194834), (2656863474765244, 107971488647830), (2772427102300807, 117163916312320),
  (2880197904496398, 97445240177827), (2979444119876216, 107971488588841), (3095007747340714, 117163916229310),
  (3202778549348034, 97445239721687), (3302024763695340, 107971487014664), (3417588389263621, 117163914014466),
  (3525359186247762, 97445227551735), (3624605373047476, 107971445015399), (3740168948024420, 117163854922150),
  (3847939610990486, 97444902859076), (3947185062823506, 107970324479397), (4062747288033499, 117162278362422),
  (4170514376106046, 97436242383586), (4269740223832808, 107940435690826), (4385266449173963, 117120238087787),
  (4492938673126905, 97206862803794), (4591645070523191, 107148494970235), (4706220581977972, 116017374228028),
  (4811677326887598, 92171848471610), (4899649484245307, 91923211741483), (5000000000000000, 105137692195876),
  (5100350515754692, 91923211741483), (5188322673112402, 92171848471610), (5293779418022029, 116017374228028),
  (5408354929476807, 107148494970235), (5507061326873095, 97206862803794), (5614733550826037, 117120238087787),
  (5730259776167191, 107940435690826), (5829485623893954, 97436242383586), (5937252711966501, 117162278362422),
  (6052814937176494, 107970324479397), (6152060389009514, 97444902859076), (6259831051975580, 117163854922150),
  (6375394626952523, 107971445015399), (6474640813752237, 97445227551735), (6582411610736378, 117163914014466),
  (6697975236304659, 107971487014664), (6797221450651965, 97445239721687), (6904992252659286, 117163916229310),
  (7020555880123783, 107971488588841), (7119802095503601, 97445240177827), (7227572897699193, 117163916312320),
  (7343136525234756, 107971488647830), (7442382740653229, 97445240194834), (7550153542855745, 117163916315265),
  (7665717170393738, 107971488649619), (7764963385812166, 97445240192406), (7872734188010406, 117163916309659),
  (7988297815540447, 107971488635180), (8087544030907535, 97445240087025), (8195314832949887, 117163916113148),
  (8310878460203394, 107971488136444), (8410124673805387, 97445236466973), (8517895470493531, 117163909363983),
  (8633459088249595, 107971471007698), (8732705241231038, 97445112139703), (8840475854034149, 117163677571006),
  (8956039145614116, 107970882755976), (9055283216731672, 97440842438706), (9163047514702998, 117155718013551),
  (9278599609851897, 107950702847984), (9377772292592532, 97294448348822), (9485320346872834, 116883734327165),
  (9600494669408544, 107284156674403), (9697336742766737, 92520049529829), (9798033427055871, 108701477542633),
  (9904386902668417, 97267564706331), (9980289538434278, 49610803259247)]

/-- precomputed_ggq_rules_optimal.cpp L3545-3644, entry 31 of `S_8_2_precomputed`. -/
def S_8_2_precomputed_row31 : List (Int × Int) := [
  (19094509641793, 48060465657396), (92625188039971, 94227953309258), (195655117539625, 105304556369426),
  (293205030444723, 89628797982022), (387020789010472, 103931526778328), (498595913966941, 113231117629441),
  (602783091550984, 94253996837922), (698856627955973, 104577243383985), (810797720131471, 113494601825627),
  (915194383791193, 94395816112497), (1011337077686324, 104596792669852), (1123289016404419, 113502312646912),
  (1227691797557432, 94399952385338), (1323836508258203, 104597362538707), (1435788762959393, 113502537196359),
  (1540191722251030, 94400072827380), (1636336491677962, 104597379132180), (1748288755579797, 113502543734612),
  (1852691720058325, 94400076334306), (1948836491195193, 104597379615333), (2060788755364924, 113502543924986),
  (2165191719994477, 94400076436413), (2261336491181123, 104597379629386), (2373288755358635, 113502543930507),
  (2477691719992536, 94400076439266), (2573836491180360, 104597379629380), (2685788755357599, 113502543930085),
  (2790191719990304, 94400076436144), (2886336491170908, 104597379618320), (2998288755334815, 113502543914511),
  (3102691719932191, 94400076350544), (3198836490919029, 104597379322901), (3310788754727082, 113502543498861),
  (3415191718381780, 94400074066662), (3511336484198880, 104597371441081), (3623288738512675, 113502532409258),
  (3727691677016627, 94400013132490), (3823836304904668, 104597161153400), (3935788305910958, 113502236538260),
  (4040190573415981, 94398387486504), (4136331521515793, 104591550912549), (4248276764680531, 113494343473930),
  (4352661148644128, 94355076330513), (4448704047097128, 104442059052762), (4560469310758911, 113284357106272),
  (4664389521884587, 93242511233450), (4757917223851119, 100622676433268), (4865220984267850, 108354622868824),
  (4962197860073931, 81509998332594), (5037802139926069, 81509998332594), (5134779015732150, 108354622868824),
  (5242082776148881, 100622676433268), (5335610478115413, 93242511233450), (5439530689241089, 113284357106272),
  (5551295952902872, 104442059052762), (5647338851355872, 94355076330513), (5751723235319469, 113494343473930),
  (5863668478484207, 104591550912549), (5959809426584020, 94398387486504), (6064211694089042, 113502236538260),
  (6176163695095332, 104597161153400), (6272308322983372, 94400013132490), (6376711261487324, 113502532409258),
  (6488663515801120, 104597371441081), (6584808281618220, 94400074066662), (6689211245272918, 113502543498861),
  (6801163509080971, 104597379322901), (6897308280067809, 94400076350544), (7001711244665184, 113502543914511),
  (7113663508829092, 104597379618320), (7209808280009696, 94400076436144), (7314211244642401, 113502543930085),
  (7426163508819640, 104597379629380), (7522308280007464, 94400076439266), (7626711244641364, 113502543930507),
  (7738663508818877, 104597379629386), (7834808280005523, 94400076436413), (7939211244635076, 113502543924986),
  (8051163508804806, 104597379615333), (8147308279941675, 94400076334306), (8251711244420202, 113502543734612),
  (8363663508322038, 104597379132180), (8459808277748969, 94400072827380), (8564211237040608, 113502537196359),
  (8676163491741796, 104597362538707), (8772308202442568, 94399952385338), (8876710983595582, 113502312646912),
  (8988662922313676, 104596792669852), (9084805616208808, 94395816112497), (9189202279868529, 113494601825627),
  (9301143372044026, 104577243383985), (9397216908449015, 94253996837922), (9501404086033058, 113231117629441),
  (9612979210989527, 103931526778328), (9706794969555277, 89628797982022), (9804344882460375, 105304556369426),
  (9907374811960029, 94227953309258), (9980905490358207, 48060465657396)]

/-- precomputed_ggq_rules_optimal.cpp L3645-3747, entry 32 of `S_8_2_precomputed`. -/
def S_8_2_precomputed_row32 : List (Int × Int) := [
  (18515888137496, 46604087910202), (89818364159972, 91372560784735), (189726174583879, 102113509206716),
  (284320029522156, 86912773800749), (375292886313185, 100782086572924), (483486946877034, 109799871640670),
  (584516937261560, 91397815115560), (677679154381550, 101408236008712), (786228092248700, 110055371467275),
  (887461220646005, 91535336836361), (980690499574618, 101427192891978), (1089249955301254, 110062848627309),
  (1190489015813267, 91539347767600), (1283720250432197, 101427745492080), (1392280012566684, 110063066372227),
  (1493519245819181, 91539464559883), (1586750537384691, 101427761582720), (1695310308441015, 110063072712351),
  (1796549546723225, 91539467960539), (1889780839946855, 101427762051233), (1998340611262957, 110063072896957),
  (2099579849691616, 91539468059555), (2192811142963524, 101427762064872), (2301370914287187, 110063072902328),
  (2402610152720102, 91539468062416), (2495841445993364, 101427762065191), (2604401217317154, 110063072902375),
  (2705640455749943, 91539468061898), (2798871749021885, 101427762063125), (2907431520343178, 110063072899457),
  (3008670758769342, 91539468045840), (3101902052004930, 101427762007699), (3210461823259459, 110063072821473),
  (3311701061508760, 91539467617342), (3404932353774411, 101427760528926), (3513492123247643, 110063070740862),
  (3614731356778201, 91539456184963), (3707962623165811, 101427721075072), (3816522345113850, 110063015229898),
  (3917761452748639, 91539151170647), (4010992028712990, 101426668450342), (4119550482698136, 110061534219245),
  (4220786232099619, 91531015572459), (4313998392085365, 101398591103503), (4422523028011905, 110022041840043),
  (4523669662634365, 91315537785382), (4616393854127847, 100654646790221), (4724025395191428, 108986018214208),
  (4823090822227744, 86585675836967), (4905731333684986, 86352107999575), (5000000000000000, 98765710850671),
  (5094268666315015, 86352107999575), (5176909177772256, 86585675836967), (5275974604808573, 108986018214208),
  (5383606145872153, 100654646790221), (5476330337365635, 91315537785382), (5577476971988095, 110022041840043),
  (5686001607914635, 101398591103503), (5779213767900382, 91531015572459), (5880449517301864, 110061534219245),
  (5989007971287010, 101426668450342), (6082238547251362, 91539151170647), (6183477654886150, 110063015229898),
  (6292037376834189, 101427721075072), (6385268643221799, 91539456184963), (6486507876752357, 110063070740862),
  (6595067646225589, 101427760528926), (6688298938491241, 91539467617342), (6789538176740542, 110063072821473),
  (6898097947995071, 101427762007699), (6991329241230657, 91539468045840), (7092568479656822, 110063072899457),
  (7201128250978116, 101427762063125), (7294359544250058, 91539468061898), (7395598782682846, 110063072902375),
  (7504158554006636, 101427762065191), (7597389847279900, 91539468062416), (7698629085712813, 110063072902328),
  (7807188857036477, 101427762064872), (7900420150308384, 91539468059555), (8001659388737042, 110063072896957),
  (8110219160053146, 101427762051233), (8203450453276776, 91539467960539), (8304689691558984, 110063072712351),
  (8413249462615310, 101427761582720), (8506480754180819, 91539464559883), (8607719987433317, 110063066372227),
  (8716279749567802, 101427745492080), (8809510984186733, 91539347767600), (8910750044698746, 110062848627309),
  (9019309500425383, 101427192891978), (9112538779353996, 91535336836361), (9213771907751301, 110055371467275),
  (9322320845618450, 101408236008712), (9415483062738439, 91397815115560), (9516513053122966, 109799871640670),
  (9624707113686815, 100782086572924), (9715679970477844, 86912773800749), (9810273825416120, 102113509206716),
  (9910181635840027, 91372560784735), (9981484111862504, 46604087910202)]

/-- precomputed_ggq_rules_optimal.cpp L3748-3853, entry 33 of `S_8_2_precomputed`. -/
def S_8_2_precomputed_row33 : List (Int × Int) := [
  (17971303192276, 45233379442255), (87176647567032, 88685132526360), (184145992978471, 99110170700636),
  (275957675712681, 84356515747785), (364254860245150, 97817907556073), (469266742557121, 106570463651239),
  (567325262636220, 88709644082750), (657747414546798, 98425640831986), (763103736594326, 106818448777061),
  (861359420038770, 88843121047056), (951846661351835, 98444040159861), (1057213191910041, 106825706020624),
  (1155474632995230, 88847014009730), (1245963772478309, 98444576507019), (1351330600432370, 106825917361279),
  (1449592209177440, 88847127366946), (1540081403932200, 98444592124405), (1645448240545691, 106825923514929),
  (1743709854172541, 88847130667582), (1834199050536653, 98444592579138), (1939565887402282, 106825923694105),
  (2037827501171275, 88847130763687), (2128316697582246, 98444592592378), (2233683534455216, 106825923699322),
  (2331945148228346, 88847130766481), (2422434344640672, 98444592592749), (2527801181513838, 106825923699453),
  (2626062795287042, 88847130766449), (2716551991699152, 98444592592369), (2821918828571853, 106825923698908),
  (2920180442343814, 88847130763432), (3010669638749089, 98444592581948), (3116036475609238, 106825923684245),
  (3214298089347944, 88847130682865), (3304787285570850, 98444592303907), (3410154122096077, 106825923293045),
  (3508415734947558, 88847128533329), (3598904926304828, 98444584885723), (3704271753894282, 106825912855772),
  (3802533343074473, 88847071183520), (3893022404616158, 98444386967906), (3998388993798549, 106825634388950),
  (4096649951450335, 88845541163769), (4187135549661922, 98439106741222), (4292495778522852, 106818205622522),
  (4390739904606238, 88804777722836), (4481133220797296, 98298408520247), (4586324057184857, 106620571394138),
  (4684131314714905, 87757657631482), (4772157387153995, 94703695466605), (4873149161663858, 101980821523599),
  (4964421515363700, 76715292548324), (5035578484636299, 76715292548324), (5126850838336141, 101980821523599),
  (5227842612846005, 94703695466605), (5315868685285094, 87757657631482), (5413675942815143, 106620571394138),
  (5518866779202702, 98298408520247), (5609260095393762, 88804777722836), (5707504221477148, 106818205622522),
  (5812864450338078, 98439106741222), (5903350048549666, 88845541163769), (6001611006201452, 106825634388950),
  (6106977595383842, 98444386967906), (6197466656925527, 88847071183520), (6295728246105717, 106825912855772),
  (6401095073695171, 98444584885723), (6491584265052442, 88847128533329), (6589845877903923, 106825923293045),
  (6695212714429148, 98444592303907), (6785701910652056, 88847130682865), (6883963524390763, 106825923684245),
  (6989330361250911, 98444592581948), (7079819557656186, 88847130763432), (7178081171428147, 106825923698908),
  (7283448008300849, 98444592592369), (7373937204712958, 88847130766449), (7472198818486162, 106825923699453),
  (7577565655359327, 98444592592749), (7668054851771654, 88847130766481), (7766316465544784, 106825923699322),
  (7871683302417753, 98444592592378), (7962172498828725, 88847130763687), (8060434112597717, 106825923694105),
  (8165800949463347, 98444592579138), (8256290145827458, 88847130667582), (8354551759454308, 106825923514929),
  (8459918596067800, 98444592124405), (8550407790822560, 88847127366946), (8648669399567630, 106825917361279),
  (8754036227521691, 98444576507019), (8844525367004770, 88847014009730), (8942786808089959, 106825706020624),
  (9048153338648166, 98444040159861), (9138640579961230, 88843121047056), (9236896263405674, 106818448777061),
  (9342252585453201, 98425640831986), (9432674737363779, 88709644082750), (9530733257442878, 106570463651239),
  (9635745139754849, 97817907556073), (9724042324287320, 84356515747785), (9815854007021528, 99110170700636),
  (9912823352432968, 88685132526360), (9982028696807724, 45233379442255)]

/-- precomputed_ggq_rules_optimal.cpp L3854-3962, entry 34 of `S_8_2_precomputed`. -/
def S_8_2_precomputed_row34 : List (Int × Int) := [
  (17457837386782, 43940997172476), (84685886207973, 86151271597036), (178884678893372, 96278451537761),
  (268073170692318, 81946329583563), (353847578523860, 95023110197328), (455859121341203, 103525593261204),
  (551115969418043, 86175082823243), (638954631274033, 95613479665357), (741300772691631, 103766493097716),
  (836749150894805, 86304746159997), (924651042456068, 95631353298150), (1027007100712611, 103773542991463),
  (1122461072052509, 86308527895166), (1210364807550357, 95631874321104), (1312721154705731, 103773748293814),
  (1408175288915228, 86308638013604), (1496079078105566, 95631889492279), (1598435433672957, 103773754271645),
  (1693889572624754, 86308641219937), (1781793363378463, 95631889934020), (1884149719190788, 103773754445702),
  (1979603858280667, 86308641313296), (2067507649079897, 95631889946882), (2169864004899354, 103773754450770),
  (2265318143993253, 86308641316013), (2353221934793806, 95631889947253), (2455578290613467, 103773754450914),
  (2551032429707474, 86308641316071), (2638936220508018, 95631889947191), (2741292576327597, 103773754450815),
  (2836746715421373, 86308641315506), (2924650506220633, 95631889945232), (3027006862037853, 103773754448059),
  (3122461001125379, 86308641300363), (3210364791890363, 95631889892974), (3312721147644632, 103773754374532),
  (3408175286565402, 86308640896351), (3496079076415873, 95631888498702), (3598435430490635, 103773752412812),
  (3693889564962304, 86308630117251), (3781793330413479, 95631851299354), (3884149639678773, 103773700073904),
  (3979603655448716, 86308342532324), (4067506769929390, 95630858824609), (4169861883686813, 103772303692431),
  (4265312733122498, 86300671825462), (4353198483966201, 95604385897589), (4455521712125511, 103735068020612),
  (4550888539055259, 86097507054789), (4638314205320541, 94902952687922), (4739795372609060, 102758245744825),
  (4833199918100444, 81637922931997), (4911118114617272, 81417701828171), (5000000000000000, 93121955944918),
  (5088881885382728, 81417701828171), (5166800081899556, 81637922931997), (5260204627390940, 102758245744825),
  (5361685794679458, 94902952687922), (5449111460944741, 86097507054789), (5544478287874489, 103735068020612),
  (5646801516033798, 95604385897589), (5734687266877503, 86300671825462), (5830138116313186, 103772303692431),
  (5932493230070609, 95630858824609), (6020396344551283, 86308342532324), (6115850360321227, 103773700073904),
  (6218206669586520, 95631851299354), (6306110435037696, 86308630117251), (6401564569509364, 103773752412812),
  (6503920923584127, 95631888498702), (6591824713434599, 86308640896351), (6687278852355367, 103773754374532),
  (6789635208109638, 95631889892974), (6877538998874621, 86308641300363), (6972993137962147, 103773754448059),
  (7075349493779366, 95631889945232), (7163253284578626, 86308641315506), (7258707423672403, 103773754450815),
  (7361063779491982, 95631889947191), (7448967570292525, 86308641316071), (7544421709386532, 103773754450914),
  (7646778065206193, 95631889947253), (7734681856006747, 86308641316013), (7830135995100647, 103773754450770),
  (7932492350920103, 95631889946882), (8020396141719331, 86308641313296), (8115850280809211, 103773754445702),
  (8218206636621537, 95631889934020), (8306110427375245, 86308641219937), (8401564566327042, 103773754271645),
  (8503920921894434, 95631889492279), (8591824711084771, 86308638013604), (8687278845294270, 103773748293814),
  (8789635192449642, 95631874321104), (8877538927947490, 86308527895166), (8972992899287389, 103773542991463),
  (9075348957543932, 95631353298150), (9163250849105194, 86304746159997), (9258699227308369, 103766493097716),
  (9361045368725968, 95613479665357), (9448884030581957, 86175082823243), (9544140878658796, 103525593261204),
  (9646152421476138, 95023110197328), (9731926829307681, 81946329583563), (9821115321106627, 96278451537761),
  (9915314113792025, 86151271597036), (9982542162613218, 43940997172476)]

/-- precomputed_ggq_rules_optimal.cpp L3963-4074, entry 35 of `S_8_2_precomputed`. -/
def S_8_2_precomputed_row35 : List (Int × Int) := [
  (16972897459372, 42720413917685), (82333500479974, 83758180719340), (173915660035222, 93604050106157),
  (260626693728643, 79670042650686), (344018479120420, 92383579358514), (443196367970614, 100649882337281),
  (535807192489764, 83781330522597), (621205891516421, 92957549674653), (720709084561308, 100884090511669),
  (813506118925505, 83907392099997), (898966291276733, 92974926817646), (998479125692816, 100890944575033),
  (1091281597828828, 83911068786967), (1176743562896181, 92975433367740), (1276256678186127, 100891144174541),
  (1369059308667582, 83911175846560), (1454521325935967, 92975448117493), (1554034449404264, 100891149986322),
  (1646837084496289, 83911178963828), (1732299103284617, 92975448546963), (1831812226991044, 100891150155544),
  (1924614862217315, 83911179054593), (2010076881049900, 92975448559468), (2109590004763261, 100891150160471),
  (2202392639993440, 83911179057236), (2287854658827313, 92975448559832), (2387367782540876, 100891150160614),
  (2480170417771168, 83911179057309), (2565632436605069, 92975448559829), (2665145560318620, 100891150160599),
  (2757948195548871, 83911179057204), (2843410214382531, 92975448559460), (2942923338095639, 100891150160080),
  (3035725973324713, 83911179054352), (3121187992151918, 92975448549618), (3220701115853169, 100891150146232),
  (3313503751050836, 83911178978261), (3398965769705803, 92975448287023), (3498478893090740, 100891149776765),
  (3591281527450471, 83911176948144), (3676743541510116, 92975441280961), (3776256656455711, 100891139919340),
  (3869059268459224, 83911122784436), (3954521159915260, 92975254358578), (4054034049698629, 100890876922897),
  (4146836065258649, 83909677765781), (4232294685791815, 92970267477821), (4331801568604916, 100883860865716),
  (4424587687683669, 83871178960456), (4509959152975225, 92837385824678), (4609306054007921, 100697206316686),
  (4701679575008521, 82882232207511), (4784815310089883, 89442379051794), (4880196430460311, 96315220327844),
  (4966398097843494, 72453331851195), (5033601902156505, 72453331851195), (5119803569539689, 96315220327844),
  (5215184689910116, 89442379051794), (5298320424991478, 82882232207511), (5390693945992079, 100697206316686),
  (5490040847024774, 92837385824678), (5575412312316330, 83871178960456), (5668198431395083, 100883860865716),
  (5767705314208184, 92970267477821), (5853163934741350, 83909677765781), (5945965950301371, 100890876922897),
  (6045478840084739, 92975254358578), (6130940731540775, 83911122784436), (6223743343544288, 100891139919340),
  (6323256458489884, 92975441280961), (6408718472549528, 83911176948144), (6501521106909260, 100891149776765),
  (6601034230294196, 92975448287023), (6686496248949163, 83911178978261), (6779298884146830, 100891150146232),
  (6878812007848082, 92975448549618), (6964274026675287, 83911179054352), (7057076661904360, 100891150160080),
  (7156589785617468, 92975448559460), (7242051804451127, 83911179057204), (7334854439681379, 100891150160599),
  (7434367563394931, 92975448559829), (7519829582228832, 83911179057309), (7612632217459124, 100891150160614),
  (7712145341172686, 92975448559832), (7797607360006559, 83911179057236), (7890409995236739, 100891150160471),
  (7989923118950100, 92975448559468), (8075385137782684, 83911179054593), (8168187773008955, 100891150155544),
  (8267700896715383, 92975448546963), (8353162915503711, 83911178963828), (8445965550595735, 100891149986322),
  (8545478674064033, 92975448117493), (8630940691332416, 83911175846560), (8723743321813873, 100891144174541),
  (8823256437103818, 92975433367740), (8908718402171172, 83911068786967), (9001520874307183, 100890944575033),
  (9101033708723266, 92974926817646), (9186493881074494, 83907392099997), (9279290915438692, 100884090511669),
  (9378794108483579, 92957549674653), (9464192807510236, 83781330522597), (9556803632029385, 100649882337281),
  (9655981520879580, 92383579358514), (9739373306271357, 79670042650686), (9826084339964777, 93604050106157),
  (9917666499520025, 83758180719340), (9983027102540628, 42720413917685)]

/-- precomputed_ggq_rules_optimal.cpp L4075-4189, entry 36 of `S_8_2_precomputed`. -/
def S_8_2_precomputed_row36 : List (Int × Int) := [
  (16514170501010, 41565808136126), (80108270737272, 81494446105304), (169215236791027, 91074210914098),
  (253582729033274, 77516798254722), (334720682387436, 89886725862337), (431218087755192, 97929615247084),
  (521325917017067, 81516970238202), (604416543097058, 90445183467230), (701230460654246, 98157493470813),
  (791519467062653, 81639624745943), (874669905026010, 90462090957710), (971493203376795, 98164162289222),
  (1061787500590211, 81643202062995), (1144939682817906, 90462583817261), (1241763254451367, 98164356494148),
  (1332057705730621, 81643306229085), (1415209938748508, 90462598168372), (1512033518339284, 98164362148854),
  (1602327974104497, 81643309262102), (1685480208601249, 90462598586235), (1782303788423719, 98164362313502),
  (1872598244319550, 81643309350415), (1955750478859362, 90462598598402), (2052574058688578, 98164362318296),
  (2142868514588213, 81643309352986), (2226020749129278, 90462598598756), (2322844328958691, 98164362318436),
  (2413138784858436, 81643309353061), (2496291019399536, 90462598598763), (2593114599228951, 98164362318436),
  (2683409055128691, 81643309353043), (2766561289669747, 90462598598694), (2863384869499078, 98164362318339),
  (2953679325398597, 81643309352506), (3036831559938438, 90462598596842), (3133655139765537, 98164362315732),
  (3223949595659143, 81643309338182), (3307101830166559, 90462598547408), (3403925409934112, 98164362246179),
  (3494219865669975, 81643308956008), (3577372099312313, 90462597228502), (3674195677491142, 98164360390498),
  (3764490129018396, 81643298759562), (3847642339580318, 90462562039929), (3944465875371812, 98164310880720),
  (4034760214613651, 81643026719766), (4117911809392667, 90461623212468), (4214734214298337, 98162989979326),
  (4305025558359120, 81635770645707), (4388160728076137, 90436581254476), (4484952970929538, 98127767046525),
  (4575164834241461, 81443587754530), (4657864788816728, 89773063353440), (4753860487603165, 97203745974835),
  (4842216138743663, 77225062232970), (4915922540854176, 77016744972594), (5000000000000000, 88088336704653),
  (5084077459145824, 77016744972594), (5157783861256338, 77225062232970), (5246139512396836, 97203745974835),
  (5342135211183272, 89773063353440), (5424835165758539, 81443587754530), (5515047029070463, 98127767046525),
  (5611839271923863, 90436581254476), (5694974441640881, 81635770645707), (5785265785701663, 98162989979326),
  (5882088190607333, 90461623212468), (5965239785386350, 81643026719766), (6055534124628188, 98164310880720),
  (6152357660419682, 90462562039929), (6235509870981605, 81643298759562), (6325804322508858, 98164360390498),
  (6422627900687687, 90462597228502), (6505780134330026, 81643308956008), (6596074590065888, 98164362246179),
  (6692898169833441, 90462598547408), (6776050404340858, 81643309338182), (6866344860234463, 98164362315732),
  (6963168440061563, 90462598596842), (7046320674601403, 81643309352506), (7136615130500922, 98164362318339),
  (7233438710330254, 90462598598694), (7316590944871310, 81643309353043), (7406885400771049, 98164362318436),
  (7503708980600464, 90462598598763), (7586861215141565, 81643309353061), (7677155671041310, 98164362318436),
  (7773979250870723, 90462598598756), (7857131485411788, 81643309352986), (7947425941311422, 98164362318296),
  (8044249521140638, 90462598598402), (8127401755680450, 81643309350415), (8217696211576282, 98164362313502),
  (8314519791398751, 90462598586235), (8397672025895503, 81643309262102), (8487966481660716, 98164362148854),
  (8584790061251493, 90462598168372), (8667942294269381, 81643306229085), (8758236745548633, 98164356494148),
  (8855060317182095, 90462583817261), (8938212499409790, 81643202062995), (9028506796623206, 98164162289222),
  (9125330094973990, 90462090957710), (9208480532937346, 81639624745943), (9298769539345756, 98157493470813),
  (9395583456902943, 90445183467230), (9478674082982933, 81516970238202), (9568781912244808, 97929615247084),
  (9665279317612565, 89886725862337), (9746417270966726, 77516798254722), (9830784763208973, 91074210914098),
  (9919891729262728, 81494446105304), (9983485829498990, 41565808136126)]

/-- precomputed_ggq_rules_optimal.cpp L4190-4307, entry 37 of `S_8_2_precomputed`. -/
def S_8_2_precomputed_row37 : List (Int × Int) := [
  (16079587066773, 40471971079912), (78000158349449, 79349855418322), (164762204243895, 88677521153201),
  (246909499321872, 75476882511176), (325912243377240, 87521285708065), (419870243340582, 95352520109003),
  (507606813937671, 79371786810881), (588510844594504, 88065047060198), (682777027479134, 95574401537370),
  (770690007403110, 79491213568418), (851652275946378, 88081509616717), (945927592761616, 95580894860558),
  (1033845724258890, 79494696745548), (1114809691164803, 88081989506280), (1209085274071068, 95581083954828),
  (1297003555579815, 79494798170425), (1377967571939337, 88082003479730), (1472243162593513, 95581089460726),
  (1560161448470168, 79494801123626), (1641125466269637, 88082003886597), (1735401057149410, 95581089621042),
  (1823319343153246, 79494801209615), (1904283360994642, 88082003898444), (1998558951880984, 95581089625710),
  (2086477237888523, 79494801212118), (2167441255731139, 88082003898789), (2261716846617673, 95581089625845),
  (2349635132625319, 79494801212191), (2430599150467971, 88082003898798), (2524874741354509, 95581089625849),
  (2612793027362157, 79494801212190), (2693757045204801, 88082003898785), (2788032636091324, 95581089625830),
  (2875950922098930, 79494801212088), (2956914939941345, 88082003898436), (3051190530827447, 95581089625339),
  (3139108816833939, 79494801209386), (3220072834670237, 88082003889112), (3314348425545107, 95581089612220),
  (3402266711521845, 79494801137300), (3483230729194972, 88082003640338), (3577506319770174, 95581089262198),
  (3665424604953078, 79494799214031), (3746388618272741, 88081997003015), (3840664200852779, 95581079923585),
  (3928582464856107, 79494747901044), (4009546362024983, 88081819918653), (4103821731293438, 95580830769061),
  (4191739430245036, 79493378936003), (4272700228644878, 88077095505304), (4366969907099394, 95574183978046),
  (4454872546226634, 79456906383590), (4535750776502845, 87951207623379), (4629868893270662, 95397353352650),
  (4717380650008073, 78520009459747), (4796140820085153, 84734885417489), (4886501881488715, 91245998205326),
  (4968166619009626, 68639998595869), (5031833380990374, 68639998595869), (5113498118511284, 91245998205326),
  (5203859179914847, 84734885417489), (5282619349991927, 78520009459747), (5370131106729338, 95397353352650),
  (5464249223497155, 87951207623379), (5545127453773365, 79456906383590), (5633030092900605, 95574183978046),
  (5727299771355122, 88077095505304), (5808260569754964, 79493378936003), (5896178268706561, 95580830769061),
  (5990453637975016, 88081819918653), (6071417535143891, 79494747901044), (6159335799147220, 95581079923585),
  (6253611381727259, 88081997003015), (6334575395046922, 79494799214031), (6422493680229825, 95581089262198),
  (6516769270805027, 88082003640338), (6597733288478155, 79494801137300), (6685651574454893, 95581089612220),
  (6779927165329761, 88082003889112), (6860891183166060, 79494801209386), (6948809469172552, 95581089625339),
  (7043085060058654, 88082003898436), (7124049077901068, 79494801212088), (7211967363908675, 95581089625830),
  (7306242954795198, 88082003898785), (7387206972637842, 79494801212190), (7475125258645491, 95581089625849),
  (7569400849532029, 88082003898798), (7650364867374680, 79494801212191), (7738283153382327, 95581089625845),
  (7832558744268860, 88082003898789), (7913522762111477, 79494801212118), (8001441048119016, 95581089625710),
  (8095716639005358, 88082003898444), (8176680656846753, 79494801209615), (8264598942850588, 95581089621042),
  (8358874533730363, 88082003886597), (8439838551529830, 79494801123626), (8527756837406487, 95581089460726),
  (8622032428060662, 88082003479730), (8702996444420185, 79494798170425), (8790914725928931, 95581083954828),
  (8885190308835197, 88081989506280), (8966154275741111, 79494696745548), (9054072407238384, 95580894860558),
  (9148347724053620, 88081509616717), (9229309992596889, 79491213568418), (9317222972520867, 95574401537370),
  (9411489155405496, 88065047060198), (9492393186062328, 79371786810881), (9580129756659417, 95352520109003),
  (9674087756622759, 87521285708065), (9753090500678128, 75476882511176), (9835237795756104, 88677521153201),
  (9921999841650549, 79349855418322), (9983920412933227, 40471971079912)]

/-- precomputed_ggq_rules_optimal.cpp L4308-4428, entry 38 of `S_8_2_precomputed`. -/
def S_8_2_precomputed_row38 : List (Int × Int) := [
  (15667289962497, 39434228231709), (76000154289207, 77315243740929), (160537532340205, 86403738559529),
  (240578486518747, 73541577831403), (317555519188080, 85277150177089), (409104339665183, 92907583695952),
  (494591254605936, 77336612790089), (573420822938235, 85806968930449), (665269924210438, 93123775856925),
  (750928725162004, 77452977323074), (829815038101600, 85823009370135), (921673039101061, 93130102684646),
  (1007336859534303, 77456371187969), (1086224827288782, 85823476954837), (1178083087556425, 93130286930346),
  (1263747054154691, 77456470012209), (1342635070094738, 85823490569994), (1434493337911628, 93130292295066),
  (1520157308765805, 77456472889687), (1599045326108877, 85823490966428), (1690903594145579, 93130292451271),
  (1776567565123676, 77456472973471), (1855455582507600, 85823490977971), (1947313850550702, 93130292455820),
  (2032977821532407, 77456472975910), (2111865838917520, 85823490978307), (2203724106960809, 93130292455952),
  (2289388077942619, 77456472975981), (2368276095327767, 85823490978317), (2460134363371061, 93130292455956),
  (2545798334352873, 77456472975983), (2624686351738020, 85823490978314), (2716544619781312, 93130292455952),
  (2802208590763117, 77456472975964), (2881096608148221, 85823490978249), (2972954876191433, 93130292455860),
  (3058618847173027, 77456472975454), (3137506864556979, 85823490976491), (3229365132598073, 93130292453386),
  (3315029103574059, 77456472961865), (3393917120927248, 85823490929592), (3485775388911850, 93130292387400),
  (3571439359738181, 77456472599289), (3650327376270655, 85823489678322), (3742185642748006, 93130290626883),
  (3827849609581555, 77456462925738), (3906737604217225, 85823456294292), (3998595830480950, 93130243656068),
  (4084259690787310, 77456204836701), (4163147101218684, 85822565611828), (4255004254590730, 93128990493207),
  (4340665273315061, 77449320869004), (4419537100995309, 85798807856810), (4511365639086997, 93095573864651),
  (4596951252998309, 77266993510708), (4675410184262024, 85169316514802), (4766483026700438, 92218938488946),
  (4850307618808090, 73264802631279), (4920234205425757, 73067168307333), (5000000000000000, 83570986104414),
  (5079765794574242, 73067168307333), (5149692381191909, 73264802631279), (5233516973299561, 92218938488946),
  (5324589815737976, 85169316514802), (5403048747001691, 77266993510708), (5488634360913003, 93095573864651),
  (5580462899004690, 85798807856810), (5659334726684938, 77449320869004), (5744995745409269, 93128990493207),
  (5836852898781316, 85822565611828), (5915740309212690, 77456204836701), (6001404169519050, 93130243656068),
  (6093262395782775, 85823456294292), (6172150390418445, 77456462925738), (6257814357251993, 93130290626883),
  (6349672623729344, 85823489678322), (6428560640261819, 77456472599289), (6514224611088150, 93130292387400),
  (6606082879072751, 85823490929592), (6684970896425941, 77456472961865), (6770634867401927, 93130292453386),
  (6862493135443021, 85823490976491), (6941381152826972, 77456472975454), (7027045123808566, 93130292455860),
  (7118903391851779, 85823490978249), (7197791409236883, 77456472975964), (7283455380218687, 93130292455952),
  (7375313648261979, 85823490978314), (7454201665647127, 77456472975983), (7539865636628938, 93130292455956),
  (7631723904672233, 85823490978317), (7710611922057381, 77456472975981), (7796275893039191, 93130292455952),
  (7888134161082480, 85823490978307), (7967022178467593, 77456472975910), (8052686149449297, 93130292455820),
  (8144544417492400, 85823490977971), (8223432434876324, 77456472973471), (8309096405854421, 93130292451271),
  (8400954673891122, 85823490966428), (8479842691234194, 77456472889687), (8565506662088371, 93130292295066),
  (8657364929905260, 85823490569994), (8736252945845309, 77456470012209), (8821916912443575, 93130286930346),
  (8913775172711218, 85823476954837), (8992663140465698, 77456371187969), (9078326960898938, 93130102684646),
  (9170184961898400, 85823009370135), (9249071274837994, 77452977323074), (9334730075789562, 93123775856925),
  (9426579177061766, 85806968930449), (9505408745394064, 77336612790089), (9590895660334817, 92907583695952),
  (9682444480811919, 85277150177089), (9759421513481252, 73541577831403), (9839462467659794, 86403738559529),
  (9923999845710791, 77315243740929), (9984332710037503, 39434228231709)]

/-- precomputed_ggq_rules_optimal.cpp L4429-4552, entry 39 of `S_8_2_precomputed`. -/
def S_8_2_precomputed_row39 : List (Int × Int) := [
  (15275607713435, 38448372525917), (74100150431977, 75382362647406), (156524094031700, 84243645095541),
  (234564024355779, 71703038385618), (309616631208378, 83145221422662), (398876731173553, 90584894103553),
  (482226473240787, 75403197470337), (559085302364779, 83661794707188), (648638176105177, 90795681460502),
  (732155507032954, 75516652889997), (809069662149060, 83677434135881), (898631213123535, 90801850117530),
  (982153438045945, 75519961908270), (1059069206606563, 83677890030966), (1148631010367514, 90802029757087),
  (1232153377800824, 75520058261904), (1309069193342370, 83677903305744), (1398631004463838, 90802034987690),
  (1482153376046660, 75520061067445), (1559069192956155, 83677903692267), (1648631004291940, 90802035139990),
  (1732153375995584, 75520061149134), (1809069192944910, 83677903703521), (1898631004286935, 90802035144424),
  (1982153375994097, 75520061151513), (2059069192944582, 83677903703849), (2148631004286789, 90802035144553),
  (2232153375994054, 75520061151582), (2309069192944573, 83677903703859), (2398631004286785, 90802035144557),
  (2482153375994052, 75520061151584), (2559069192944572, 83677903703859), (2648631004286784, 90802035144556),
  (2732153375994050, 75520061151580), (2809069192944562, 83677903703846), (2898631004286758, 90802035144539),
  (2982153375993984, 75520061151484), (3059069192944279, 83677903703514), (3148631004286075, 90802035144072),
  (3232153375992242, 75520061148917), (3309069192936726, 83677903694656), (3398631004267852, 90802035131609),
  (3482153375945753, 75520061080435), (3559069192735223, 83677903458321), (3648631003781666, 90802034799088),
  (3732153374705424, 75520059253330), (3809069187359104, 83677897152865), (3898630990810140, 90802025927406),
  (3982153341613302, 75520010505992), (4059069043923734, 83677728922720), (4148630644728766, 90801789230608),
  (4232152458732785, 75518709989203), (4309065217212634, 83673240730039), (4398621411744425, 90795474779144),
  (4482128918915302, 75484061064411), (4558963237677703, 83553647242210), (4648375448607129, 90627485685018),
  (4731511617507669, 74594008986760), (4806333779080896, 80498141146614), (4892176787414280, 86683698295059),
  (4969758288059145, 65207998666075), (5030241711940855, 65207998666075), (5107823212585720, 86683698295059),
  (5193666220919105, 80498141146614), (5268488382492331, 74594008986760), (5351624551392872, 90627485685018),
  (5441036762322298, 83553647242210), (5517871081084698, 75484061064411), (5601378588255576, 90795474779144),
  (5690934782787366, 83673240730039), (5767847541267216, 75518709989203), (5851369355271234, 90801789230608),
  (5940930956076266, 83677728922720), (6017846658386699, 75520010505992), (6101369009189860, 90802025927406),
  (6190930812640896, 83677897152865), (6267846625294576, 75520059253330), (6351368996218335, 90802034799088),
  (6440930807264778, 83677903458321), (6517846624054248, 75520061080435), (6601368995732149, 90802035131609),
  (6690930807063274, 83677903694656), (6767846624007758, 75520061148917), (6851368995713925, 90802035144072),
  (6940930807055722, 83677903703514), (7017846624006016, 75520061151484), (7101368995713242, 90802035144539),
  (7190930807055439, 83677903703846), (7267846624005951, 75520061151580), (7351368995713217, 90802035144556),
  (7440930807055428, 83677903703859), (7517846624005948, 75520061151584), (7601368995713216, 90802035144557),
  (7690930807055428, 83677903703859), (7767846624005947, 75520061151582), (7851368995713212, 90802035144553),
  (7940930807055419, 83677903703849), (8017846624005904, 75520061151513), (8101368995713065, 90802035144424),
  (8190930807055091, 83677903703521), (8267846624004417, 75520061149134), (8351368995708062, 90802035139990),
  (8440930807043845, 83677903692267), (8517846623953340, 75520061067445), (8601368995536163, 90802034987690),
  (8690930806657630, 83677903305744), (8767846622199177, 75520058261904), (8851368989632485, 90802029757087),
  (8940930793393438, 83677890030966), (9017846561954056, 75519961908270), (9101368786876466, 90801850117530),
  (9190930337850940, 83677434135881), (9267844492967046, 75516652889997), (9351361823894824, 90795681460502),
  (9440914697635222, 83661794707188), (9517773526759212, 75403197470337), (9601123268826447, 90584894103553),
  (9690383368791622, 83145221422662), (9765435975644222, 71703038385618), (9843475905968300, 84243645095541),
  (9925899849568023, 75382362647406), (9984724392286566, 38448372525917)]

/-- precomputed_ggq_rules_optimal.cpp L4553-4679, entry 40 of `S_8_2_precomputed`. -/
def S_8_2_precomputed_row40 : List (Int × Int) := [
  (14903031915546, 37510607342358), (72292829689733, 73543768436494), (152706433201659, 82188922044430),
  (228842950591004, 69954183790846), (302065006056954, 81117289192841), (389148030413222, 88375506442491),
  (470464851942232, 73564095093012), (545449075477833, 81621263128964), (632817732785539, 88581152644392),
  (714298055641907, 73674783307315), (789336255755180, 81636521108177), (876713378657107, 88587170846371),
  (958198476142386, 73678011617825), (1033238250347866, 81636965883869), (1120615619870746, 88587346104475),
  (1202100856391048, 73678105621370), (1277140676431580, 81636978834872), (1364518053135451, 88587351207502),
  (1446003293704059, 73678108358483), (1521043115079176, 81636979211968), (1608420491992137, 88587351356087),
  (1689905732678618, 73678108438179), (1764945554092595, 81636979222948), (1852322931011644, 88587351360414),
  (1933808171701558, 73678108440500), (2008847993116666, 81636979223268), (2096225370035892, 88587351360540),
  (2177710610725906, 73678108440568), (2252750432141047, 81636979223277), (2340127809060278, 88587351360543),
  (2421613049750295, 73678108440570), (2496652871165436, 81636979223277), (2584030248084668, 88587351360543),
  (2665515488774685, 73678108440569), (2740555310189824, 81636979223275), (2827932687109053, 88587351360540),
  (2909417927799062, 73678108440551), (2984457749214162, 81636979223212), (3071835126133315, 88587351360452),
  (3153320366823124, 73678108440066), (3228360188237127, 81636979221540), (3315737565154265, 88587351358099),
  (3397222805838739, 73678108427139), (3472262627223481, 81636979176929), (3559640004086881, 88587351295332),
  (3641125244629002, 73678108082251), (3716165065233062, 81636977986697), (3803542440662738, 88587349620694),
  (3885027677406845, 73678098880580), (3960067477182239, 81636946231156), (4047444814359928, 88587304941137),
  (4128929949773295, 73677853381253), (4203969193842163, 81636098996617), (4291345510464353, 88586112908172),
  (4372827942909449, 73671305216857), (4447852364361392, 81613500156478), (4535201461570558, 88554326359059),
  (4616612167486197, 73497871876039), (4691243833810219, 81014715709202), (4777874098568710, 87720453684607),
  (4857609686183306, 69690909819997), (4924125219795232, 69502916194780), (5000000000000000, 79494352635906),
  (5075874780204768, 69502916194780), (5142390313816695, 69690909819997), (5222125901431290, 87720453684607),
  (5308756166189782, 81014715709202), (5383387832513804, 73497871876039), (5464798538429442, 88554326359059),
  (5552147635638608, 81613500156478), (5627172057090551, 73671305216857), (5708654489535647, 88586112908172),
  (5796030806157837, 81636098996617), (5871070050226705, 73677853381253), (5952555185640073, 88587304941137),
  (6039932522817761, 81636946231156), (6114972322593155, 73678098880580), (6196457559337262, 88587349620694),
  (6283834934766938, 81636977986697), (6358874755370999, 73678108082251), (6440359995913119, 88587351295332),
  (6527737372776520, 81636979176929), (6602777194161262, 73678108427139), (6684262434845736, 88587351358099),
  (6771639811762874, 81636979221540), (6846679633176876, 73678108440066), (6928164873866686, 88587351360452),
  (7015542250785839, 81636979223212), (7090582072200938, 73678108440551), (7172067312890947, 88587351360540),
  (7259444689810175, 81636979223275), (7334484511225317, 73678108440569), (7415969751915332, 88587351360543),
  (7503347128834564, 81636979223277), (7578386950249706, 73678108440570), (7659872190939722, 88587351360543),
  (7747249567858954, 81636979223277), (7822289389274094, 73678108440568), (7903774629964108, 88587351360540),
  (7991152006883335, 81636979223268), (8066191828298442, 73678108440500), (8147677068988356, 88587351360414),
  (8235054445907406, 81636979222948), (8310094267321383, 73678108438179), (8391579508007865, 88587351356087),
  (8478956884920824, 81636979211968), (8553996706295941, 73678108358483), (8635481946864549, 88587351207502),
  (8722859323568419, 81636978834872), (8797899143608953, 73678105621370), (8879384380129254, 88587346104475),
  (8966761749652135, 81636965883869), (9041801523857615, 73678011617825), (9123286621342893, 88587170846371),
  (9210663744244820, 81636521108177), (9285701944358093, 73674783307315), (9367182267214462, 88581152644392),
  (9454550924522168, 81621263128964), (9529535148057768, 73564095093012), (9610851969586778, 88375506442491),
  (9697934993943046, 81117289192841), (9771157049408997, 69954183790846), (9847293566798341, 82188922044430),
  (9927707170310266, 73543768436494), (9985096968084455, 37510607342358)]

/-- precomputed_ggq_rules_optimal.cpp L4680-4809, entry 41 of `S_8_2_precomputed`. -/
def S_8_2_precomputed_row41 : List (Int × Int) := [
  (14548197822319, 36617497643730), (70571571839978, 71792726330863), (149070565744476, 80232042948134),
  (223394308910265, 68288607986302), (294872982103217, 79185925164440), (379882601117670, 86271327717670),
  (459263307848369, 71812569019369), (532462192728361, 79677899721131), (617750643909692, 86472077581430),
  (697290959079004, 71920621799998), (770542535380057, 79692794415125), (855839250593843, 86477952492886),
  (935384226710424, 71923773245972), (1008637339625298, 79693228600920), (1093934295588109, 86478123578178),
  (1173479407429356, 71923865011337), (1246732565087971, 79693241243566), (1332029528060798, 86478128559704),
  (1411574643853962, 71923867683281), (1484827802815386, 79693241611683), (1570124765992324, 86478128704752),
  (1649669881900556, 71923867761080), (1722923040899914, 79693241622401), (1808220004082795, 86478128708975),
  (1887765119994378, 71923867763345), (1961018278994840, 79693241622714), (2046315242177894, 86478128709098),
  (2125860358089575, 71923867763411), (2199113517090069, 79693241622723), (2284410480273128, 86478128709102),
  (2363955596184811, 71923867763413), (2437208755185307, 79693241622723), (2522505718368366, 86478128709102),
  (2602050834280050, 71923867763413), (2675303993280544, 79693241622722), (2760600956463604, 86478128709101),
  (2840146072375285, 71923867763410), (2913399231375772, 79693241622711), (2998696194558817, 86478128709085),
  (3078241310470461, 71923867763318), (3151494469470741, 79693241622394), (3236791432653405, 86478128708640),
  (3316336548564040, 71923867760873), (3389589707558786, 79693241613958), (3474886670731288, 86478128696770),
  (3554431786615003, 71923867695653), (3627684945462117, 79693241388877), (3712981908363491, 86478128380084),
  (3792527023528975, 71923865955552), (3865780178437242, 79693235383681), (3951077134104896, 86478119930863),
  (4030622230107906, 71923819529516), (4103875279927365, 79693075164495), (4189172042598825, 86477894505341),
  (4268716627364556, 71922580942098), (4341966873535842, 79688800695275), (4427258487375642, 86471880742042),
  (4506789446586002, 71889581966105), (4579964988264478, 79574902135438), (4665119474863932, 86311891128588),
  (4744296778578732, 71041913320724), (4815555980077043, 76664896330109), (4897311226108838, 82555903138152),
  (4971198369580138, 62102855872453), (5028801630419861, 62102855872453), (5102688773891162, 82555903138152),
  (5184444019922957, 76664896330109), (5255703221421267, 71041913320724), (5334880525136068, 86311891128588),
  (5420035011735521, 79574902135438), (5493210553413997, 71889581966105), (5572741512624357, 86471880742042),
  (5658033126464158, 79688800695275), (5731283372635443, 71922580942098), (5810827957401175, 86477894505341),
  (5896124720072634, 79693075164495), (5969377769892094, 71923819529516), (6048922865895104, 86478119930863),
  (6134219821562757, 79693235383681), (6207472976471025, 71923865955552), (6287018091636508, 86478128380084),
  (6372315054537883, 79693241388877), (6445568213384997, 71923867695653), (6525113329268712, 86478128696770),
  (6610410292441213, 79693241613958), (6683663451435959, 71923867760873), (6763208567346595, 86478128708640),
  (6848505530529259, 79693241622394), (6921758689529538, 71923867763318), (7001303805441182, 86478128709085),
  (7086600768624227, 79693241622711), (7159853927624714, 71923867763410), (7239399043536395, 86478128709101),
  (7324696006719456, 79693241622722), (7397949165719950, 71923867763413), (7477494281631634, 86478128709102),
  (7562791244814693, 79693241622723), (7636044403815188, 71923867763413), (7715589519726872, 86478128709102),
  (7800886482909930, 79693241622723), (7874139641910425, 71923867763411), (7953684757822105, 86478128709098),
  (8038981721005160, 79693241622714), (8112234880005622, 71923867763345), (8191779995917204, 86478128708975),
  (8277076959100086, 79693241622401), (8350330118099444, 71923867761080), (8429875234007677, 86478128704752),
  (8515172197184614, 79693241611683), (8588425356146037, 71923867683281), (8667970471939203, 86478128559704),
  (8753267434912028, 79693241243566), (8826520592570644, 71923865011337), (8906065704411891, 86478123578178),
  (8991362660374702, 79693228600920), (9064615773289576, 71923773245972), (9144160749406157, 86477952492886),
  (9229457464619942, 79692794415125), (9302709040920994, 71920621799998), (9382249356090308, 86472077581430),
  (9467537807271640, 79677899721131), (9540736692151630, 71812569019369), (9620117398882330, 86271327717670),
  (9705127017896782, 79185925164440), (9776605691089735, 68288607986302), (9850929434255522, 80232042948134),
  (9929428428160021, 71792726330863), (9985451802177682, 36617497643730)]

/-- `S_8_2_precomputed`, precomputed_ggq_rules_optimal.cpp L1931-4810. -/
def S_8_2_precomputed : List (List (Int × Int)) := [
  S_8_2_precomputed_row0, S_8_2_precomputed_row1, S_8_2_precomputed_row2, S_8_2_precomputed_row3,
  S_8_2_precomputed_row4, S_8_2_precomputed_row5, S_8_2_precomputed_row6, S_8_2_precomputed_row7,
  S_8_2_precomputed_row8, S_8_2_precomputed_row9, S_8_2_precomputed_row10, S_8_2_precomputed_row11,
  S_8_2_precomputed_row12, S_8_2_precomputed_row13, S_8_2_precomputed_row14, S_8_2_precomputed_row15,
  S_8_2_precomputed_row16, S_8_2_precomputed_row17, S_8_2_precomputed_row18, S_8_2_precomputed_row19,
  S_8_2_precomputed_row20, S_8_2_precomputed_row21, S_8_2_precomputed_row22, S_8_2_precomputed_row23,
  S_8_2_precomputed_row24, S_8_2_precomputed_row25, S_8_2_precomputed_row26, S_8_2_precomputed_row27,
  S_8_2_precomputed_row28, S_8_2_precomputed_row29, S_8_2_precomputed_row30, S_8_2_precomputed_row31,
  S_8_2_precomputed_row32, S_8_2_precomputed_row33, S_8_2_precomputed_row34, S_8_2_precomputed_row35,
  S_8_2_precomputed_row36, S_8_2_precomputed_row37, S_8_2_precomputed_row38, S_8_2_precomputed_row39,
  S_8_2_precomputed_row40, S_8_2_precomputed_row41]

end QuESo.Rules.Tables
