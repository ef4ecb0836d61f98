/-!
# Tables of one-dimensional rules (generated from the source text)

`queso/quadrature/integration_points_1d/precomputed_ggq_rules_reduced1.cpp`.  Every entry (position, weight) is the decimal number of the
source multiplied by `10 ^ 16`; the rounding of the decimal to the nearest `double` is not modelled.
-/
namespace QuESo.Rules.Tables

/-- precomputed_ggq_rules_reduced1.cpp L21-24, entry 0 of `S_3_0_base_even`. -/
def S_3_0_base_even_row0 : List (Int × Int) := [
  (2298437881283575, 5442898928611817), (8701562118716423, 6223767738054848)]

/-- precomputed_ggq_rules_reduced1.cpp L25-29, entry 1 of `S_3_0_base_even`. -/
def S_3_0_base_even_row1 : List (Int × Int) := [
  (5000000000000000, 6666666666666666), (11464466094067262, 6666666666666666),
  (18535533905932737, 6666666666666666)]

/-- precomputed_ggq_rules_reduced1.cpp L30-34, entry 2 of `S_3_0_base_even`. -/
def S_3_0_base_even_row2 : List (Int × Int) := [
  (-8701562118716423, 6223767738054848), (-2298437881283575, 5442898928611817)]

/-- `S_3_0_base_even`, precomputed_ggq_rules_reduced1.cpp L19-35. -/
def S_3_0_base_even : List (List (Int × Int)) := [
  S_3_0_base_even_row0, S_3_0_base_even_row1, S_3_0_base_even_row2]

/-- precomputed_ggq_rules_reduced1.cpp L39-42, entry 0 of `S_3_0_base_odd`. -/
def S_3_0_base_odd_row0 : List (Int × Int) := [
  (2298437881283575, 5442898928611817), (8701562118716423, 6223767738054848)]

/-- precomputed_ggq_rules_reduced1.cpp L43-47, entry 1 of `S_3_0_base_odd`. -/
def S_3_0_base_odd_row1 : List (Int × Int) := [
  (5000000000000000, 6666666666666666), (11464466094067262, 6666666666666666),
  (18535533905932737, 6666666666666666)]

/-- precomputed_ggq_rules_reduced1.cpp L48-52, entry 2 of `S_3_0_base_odd`. -/
def S_3_0_base_odd_row2 : List (Int × Int) := [
  (-5000000000000000, 6666666666666666), (0, 3333333333333333)]

/-- `S_3_0_base_odd`, precomputed_ggq_rules_reduced1.cpp L37-53. -/
def S_3_0_base_odd : List (List (Int × Int)) := [
  S_3_0_base_odd_row0, S_3_0_base_odd_row1, S_3_0_base_odd_row2]

/-- precomputed_ggq_rules_reduced1.cpp L57-66, entry 0 of `S_5_1_base_even`. -/
def S_5_1_base_even_row0 : List (Int × Int) := [
  (1225148226554413, 3020174288145723), (5441518440112252, 4850196082224647),
  (10064654716056595, 4467177201362911), (15002730728687339, 5330387209380418),
  (20000387972956303, 4665398713719121), (25000000105321138, 5333333220982076),
  (30000000015045293, 4666666617518435), (35000000000000000, 5333333333333333)]

/-- precomputed_ggq_rules_reduced1.cpp L67-70, entry 1 of `S_5_1_base_even`. -/
def S_5_1_base_even_row1 : List (Int × Int) := [
  (0, 4666666666666666), (5000000000000000, 5333333333333333)]

/-- precomputed_ggq_rules_reduced1.cpp L71-74, entry 2 of `S_5_1_base_even`. -/
def S_5_1_base_even_row2 : List (Int × Int) := [
  (0, 5333333333333333)]

/-- `S_5_1_base_even`, precomputed_ggq_rules_reduced1.cpp L55-75. -/
def S_5_1_base_even : List (List (Int × Int)) := [
  S_5_1_base_even_row0, S_5_1_base_even_row1, S_5_1_base_even_row2]

/-- precomputed_ggq_rules_reduced1.cpp L79-88, entry 0 of `S_5_1_base_odd`. -/
def S_5_1_base_odd_row0 : List (Int × Int) := [
  (1225148226554413, 3020174288145723), (5441518440112252, 4850196082224647),
  (10064654716056595, 4467177201362911), (15002730728687339, 5330387209380418),
  (20000387972956303, 4665398713719121), (25000000105321138, 5333333220982076),
  (30000000015045293, 4666666617518435), (35000000000000000, 5333333333333333)]

/-- precomputed_ggq_rules_reduced1.cpp L89-92, entry 1 of `S_5_1_base_odd`. -/
def S_5_1_base_odd_row1 : List (Int × Int) := [
  (0, 4666666666666666), (5000000000000000, 5333333333333333)]

/-- precomputed_ggq_rules_reduced1.cpp L93-96, entry 2 of `S_5_1_base_odd`. -/
def S_5_1_base_odd_row2 : List (Int × Int) := [
  (0, 5333333333333333)]

/-- `S_5_1_base_odd`, precomputed_ggq_rules_reduced1.cpp L77-97. -/
def S_5_1_base_odd : List (List (Int × Int)) := [
  S_5_1_base_odd_row0, S_5_1_base_odd_row1, S_5_1_base_odd_row2]

/-- precomputed_ggq_rules_reduced1.cpp L101-133, entry 0 of `S_7_2_base_even`. -/
def S_7_2_base_even_row0 : List (Int × Int) := [
  (760228115966829, 1904791618860109), (3617699429068876, 3582547325706395),
  (7390537478975287, 3718299747820799), (10985579103123881, 3685519722675160),
  (15026222308077672, 4271563678154045), (19095025457051275, 3777519454756286),
  (22913236535841452, 4060759083914196), (27089036255670122, 4061940394439437),
  (30913081892698404, 3789910272846063), (35000047930104272, 4294395952892670),
  (39087070177952578, 3790094782615180), (42911570270795076, 4062659789224837),
  (47088433873306847, 4062661949624069), (50912944630202510, 3790117420962355),
  (55000000087342106, 4294437790605016), (59087055646930268, 3790117757251694),
  (62911567232161944, 4062663260975333), (67088432775389739, 4062663264912191),
  (70912944380054314, 3790117798505088), (75000000000159161, 4294437866845394),
  (79087055620450694, 3790117799117899), (82911567226624729, 4062663267301830),
  (87088432773389037, 4062663267309004), (90912944379598474, 3790117799193074),
  (95000000000000000, 4294437866984325), (99087055620402448, 3790117799194190),
  (102911567226614630, 4062663267313359), (107088432773385390, 4062663267313372),
  (110912944379597630, 3790117799194328), (115000000000000000, 4294437866984578),
  (119087055620402360, 3790117799194329)]

/-- precomputed_ggq_rules_reduced1.cpp L134-140, entry 1 of `S_7_2_base_even`. -/
def S_7_2_base_even_row1 : List (Int × Int) := [
  (2911567226614616, 4062663267313380), (7088432773385383, 4062663267313380),
  (10912944379597642, 3790117799194330), (15000000000000000, 4294437866984578),
  (19087055620402357, 3790117799194330)]

/-- precomputed_ggq_rules_reduced1.cpp L141-172, entry 2 of `S_7_2_base_even`. -/
def S_7_2_base_even_row2 : List (Int × Int) := [
  (-117088432773385370, 4062663267313380), (-112911567226614620, 4062663267313380),
  (-109087055620402360, 3790117799194327), (-105000000000000000, 4294437866984573),
  (-100912944379597650, 3790117799194304), (-97088432773385466, 4062663267313290),
  (-92911567226614817, 4062663267313144), (-89087055620403337, 3790117799192768),
  (-85000000000003250, 4294437866981735), (-80912944379606965, 3790117799180248),
  (-77088432773426331, 4062663267264320), (-72911567226727953, 4062663267183886),
  (-69087055620944353, 3790117798337391), (-65000000001784501, 4294437865424051),
  (-60912944384717802, 3790117791466590), (-57088432795858121, 4062663240391377),
  (-52911567288810994, 4062663196251523), (-49087055917831978, 3790117328935633),
  (-45000000979275220, 4294437010620896), (-40912947189362913, 3790113558489482),
  (-37088445105605241, 4062648493534368), (-32911601357343611, 4062624272865184),
  (-29087218831786549, 3789859750609632), (-25000537360333234, 4293967974405691),
  (-20914484991980737, 3787794969141897), (-17095185551114506, 4054584883825521),
  (-12930143060162939, 4041817191522872), (-9174073562323646, 3653364854111180),
  (-5281069950439843, 4061022354033779), (-1521318396960232, 3254984198916945)]

/-- `S_7_2_base_even`, precomputed_ggq_rules_reduced1.cpp L99-173. -/
def S_7_2_base_even : List (List (Int × Int)) := [
  S_7_2_base_even_row0, S_7_2_base_even_row1, S_7_2_base_even_row2]

/-- precomputed_ggq_rules_reduced1.cpp L177-209, entry 0 of `S_7_2_base_odd`. -/
def S_7_2_base_odd_row0 : List (Int × Int) := [
  (760228115966829, 1904791618860109), (3617699429068876, 3582547325706395),
  (7390537478975287, 3718299747820799), (10985579103123881, 3685519722675160),
  (15026222308077672, 4271563678154045), (19095025457051275, 3777519454756286),
  (22913236535841452, 4060759083914196), (27089036255670122, 4061940394439437),
  (30913081892698404, 3789910272846063), (35000047930104272, 4294395952892670),
  (39087070177952578, 3790094782615180), (42911570270795076, 4062659789224837),
  (47088433873306847, 4062661949624069), (50912944630202510, 3790117420962355),
  (55000000087342106, 4294437790605016), (59087055646930268, 3790117757251694),
  (62911567232161944, 4062663260975333), (67088432775389739, 4062663264912191),
  (70912944380054314, 3790117798505088), (75000000000159161, 4294437866845394),
  (79087055620450694, 3790117799117899), (82911567226624729, 4062663267301830),
  (87088432773389037, 4062663267309004), (90912944379598474, 3790117799193074),
  (95000000000000000, 4294437866984325), (99087055620402448, 3790117799194190),
  (102911567226614630, 4062663267313359), (107088432773385390, 4062663267313372),
  (110912944379597630, 3790117799194328), (115000000000000000, 4294437866984578),
  (119087055620402360, 3790117799194329)]

/-- precomputed_ggq_rules_reduced1.cpp L210-216, entry 1 of `S_7_2_base_odd`. -/
def S_7_2_base_odd_row1 : List (Int × Int) := [
  (2911567226614616, 4062663267313380), (7088432773385383, 4062663267313380),
  (10912944379597642, 3790117799194330), (15000000000000000, 4294437866984578),
  (19087055620402357, 3790117799194330)]

/-- precomputed_ggq_rules_reduced1.cpp L217-246, entry 2 of `S_7_2_base_odd`. -/
def S_7_2_base_odd_row2 : List (Int × Int) := [
  (-107088432773385370, 4062663267313377), (-102911567226614620, 4062663267313371),
  (-99087055620402395, 3790117799194270), (-95000000000000000, 4294437866984470),
  (-90912944379597995, 3790117799193795), (-87088432773386941, 4062663267311517),
  (-82911567226618920, 4062663267308463), (-79087055620422939, 3790117799161795),
  (-75000000000067750, 4294437866925332), (-70912944379792035, 3790117798900940),
  (-67088432774238579, 4062663266291265), (-62911567228975950, 4062663264615462),
  (-59087055631694500, 3790117781340596), (-55000000037178935, 4294437834472069),
  (-50912944486272690, 3790117638192193), (-47088433241589351, 4062662706412020),
  (-42911568522432759, 4062661786790824), (-39087061817134025, 3790108001694792),
  (-35000020402483866, 4294420025303176), (-30913002917355432, 3790029452963866),
  (-27088689686517808, 4062355505486370), (-22912278103826144, 4061851618358530),
  (-19090452764517753, 3784747105190253), (-15011181799416983, 4284669662896714),
  (-10944523731123818, 3743472090342650), (-7222956569096318, 3906634563263599),
  (-3243503873888425, 3791156707916761), (0, 2855788512349797)]

/-- `S_7_2_base_odd`, precomputed_ggq_rules_reduced1.cpp L175-247. -/
def S_7_2_base_odd : List (List (Int × Int)) := [
  S_7_2_base_odd_row0, S_7_2_base_odd_row1, S_7_2_base_odd_row2]

/-- precomputed_ggq_rules_reduced1.cpp L266-269, entry 0 of `S_3_0_precomputed`. -/
def S_3_0_precomputed_row0 : List (Int × Int) := [
  (2113248654051871, 5000000000000000), (7886751345948129, 5000000000000000)]

/-- precomputed_ggq_rules_reduced1.cpp L270-275, entry 1 of `S_3_0_precomputed`. -/
def S_3_0_precomputed_row1 : List (Int × Int) := [
  (1056624327025936, 2500000000000000), (3943375672974064, 2500000000000000),
  (6056624327025936, 2500000000000000), (8943375672974064, 2500000000000000)]

/-- precomputed_ggq_rules_reduced1.cpp L276-282, entry 2 of `S_3_0_precomputed`. -/
def S_3_0_precomputed_row2 : List (Int × Int) := [
  (766145960427859, 1814299642870606), (2900520706238808, 2074589246018283),
  (5000000000000000, 2222222222222222), (7099479293761191, 2074589246018283),
  (9233854039572141, 1814299642870606)]

/-- precomputed_ggq_rules_reduced1.cpp L283-291, entry 3 of `S_3_0_precomputed`. -/
def S_3_0_precomputed_row3 : List (Int × Int) := [
  (574609470320894, 1360724732152954), (2175390529679106, 1555941934513712),
  (3750000000000000, 1666666666666667), (5000000000000000, 833333333333333),
  (6250000000000000, 1666666666666667), (7824609470320893, 1555941934513712),
  (9425390529679106, 1360724732152954)]

/-- `S_3_0_precomputed`, precomputed_ggq_rules_reduced1.cpp L264-292. -/
def S_3_0_precomputed : List (List (Int × Int)) := [
  S_3_0_precomputed_row0, S_3_0_precomputed_row1, S_3_0_precomputed_row2, S_3_0_precomputed_row3]

/-- precomputed_ggq_rules_reduced1.cpp L297-301, entry 0 of `S_5_1_precomputed`. -/
def S_5_1_precomputed_row0 : List (Int × Int) := [
  (1127016653792583, 2777777777777778), (5000000000000000, 4444444444444444),
  (8872983346207417, 2777777777777778)]

/-- precomputed_ggq_rules_reduced1.cpp L302-308, entry 1 of `S_5_1_precomputed`. -/
def S_5_1_precomputed_row1 : List (Int × Int) := [
  (612574113277207, 1510087144072862), (2720759220056126, 2425098041112324),
  (5000000000000000, 2129629629629630), (7279240779943874, 2425098041112324),
  (9387425886722793, 1510087144072862)]

/-- precomputed_ggq_rules_reduced1.cpp L309-317, entry 2 of `S_5_1_precomputed`. -/
def S_5_1_precomputed_row2 : List (Int × Int) := [
  (408382742184805, 1006724762715241), (1813839480037417, 1616732027408216),
  (3354747499025704, 1488624723704782), (5000000000000000, 1775836972343522),
  (6645252500974295, 1488624723704782), (8186160519962582, 1616732027408216),
  (9591617257815195, 1006724762715241)]

/-- precomputed_ggq_rules_reduced1.cpp L318-328, entry 3 of `S_5_1_precomputed`. -/
def S_5_1_precomputed_row3 : List (Int × Int) := [
  (306287056638603, 755043572036431), (1360379610028063, 1212549020556162),
  (2516163679014149, 1116794300340728), (3750682682171835, 1332596802345105),
  (5000000000000000, 1166032609443150), (6249317317828166, 1332596802345105),
  (7483836320985850, 1116794300340728), (8639620389971937, 1212549020556162),
  (9693712943361397, 755043572036431)]

/-- precomputed_ggq_rules_reduced1.cpp L329-341, entry 4 of `S_5_1_precomputed`. -/
def S_5_1_precomputed_row4 : List (Int × Int) := [
  (245029645310883, 604034857629145), (1088303688022451, 970039216444930), (2012930943211319, 893435440272582),
  (3000546145737468, 1066077441876084), (4000077591581034, 933079732912435),
  (5000000000000000, 1066666621729649), (5999922408418966, 933079732912435),
  (6999453854262533, 1066077441876084), (7987069056788680, 893435440272582),
  (8911696311977549, 970039216444930), (9754970354689118, 604034857629145)]

/-- precomputed_ggq_rules_reduced1.cpp L342-356, entry 5 of `S_5_1_precomputed`. -/
def S_5_1_precomputed_row5 : List (Int × Int) := [
  (204191371092402, 503362381357621), (906919740018709, 808366013704108), (1677442452676099, 744529533560485),
  (2500455121447890, 888397868230070), (3333397995492717, 777566452286520),
  (4166666684220189, 888888870163679), (5000000000000000, 777777761395034),
  (5833333315779810, 888888870163679), (6666602004507283, 777566452286520),
  (7499544878552109, 888397868230070), (8322557547323900, 744529533560485),
  (9093080259981290, 808366013704108), (9795808628907597, 503362381357621)]

/-- precomputed_ggq_rules_reduced1.cpp L357-373, entry 6 of `S_5_1_precomputed`. -/
def S_5_1_precomputed_row6 : List (Int × Int) := [
  (175021175222059, 431453469735103), (777359777158893, 692885154603521), (1437807816579514, 638168171623273),
  (2143247246955334, 761483887054345), (2857198281850901, 666485530531303),
  (3571428586474448, 761904745854582), (4285714287863613, 666666659645491),
  (5000000000000000, 761904761904762), (5714285712136387, 666666659645491),
  (6428571413525551, 761904745854582), (7142801718149099, 666485530531303),
  (7856752753044665, 761483887054345), (8562192183420485, 638168171623273),
  (9222640222841105, 692885154603521), (9824978824777940, 431453469735103)]

/-- `S_5_1_precomputed`, precomputed_ggq_rules_reduced1.cpp L295-374. -/
def S_5_1_precomputed : List (List (Int × Int)) := [
  S_5_1_precomputed_row0, S_5_1_precomputed_row1, S_5_1_precomputed_row2, S_5_1_precomputed_row3,
  S_5_1_precomputed_row4, S_5_1_precomputed_row5, S_5_1_precomputed_row6]

/-- precomputed_ggq_rules_reduced1.cpp L378-383, entry 0 of `S_7_2_precomputed`. -/
def S_7_2_precomputed_row0 : List (Int × Int) := [
  (694318442029737, 1739274225687269), (3300094782075719, 3260725774312730),
  (6699905217924281, 3260725774312730), (9305681557970263, 1739274225687269)]

/-- precomputed_ggq_rules_reduced1.cpp L384-392, entry 1 of `S_7_2_precomputed`. -/
def S_7_2_precomputed_row1 : List (Int × Int) := [
  (364970120365749, 914285070782760), (1735018830191759, 1714878862346337),
  (3525011049442492, 1720836066870903), (5000000000000000, 1300000000000000),
  (6474988950557508, 1720836066870903), (8264981169808241, 1714878862346337),
  (9635029879634252, 914285070782760)]

/-- precomputed_ggq_rules_reduced1.cpp L393-403, entry 2 of `S_7_2_precomputed`. -/
def S_7_2_precomputed_row2 : List (Int × Int) := [
  (253367921145784, 634825826754636), (1205693300427040, 1193960349361700),
  (2462972093906766, 1238795538924619), (3659165185726799, 1224263795606457),
  (5000000000000000, 1416308978705175), (6340834814273200, 1224263795606457),
  (7537027906093234, 1238795538924619), (8794306699572960, 1193960349361700),
  (9746632078854216, 634825826754636)]

/-- precomputed_ggq_rules_reduced1.cpp L404-417, entry 3 of `S_7_2_precomputed`. -/
def S_7_2_precomputed_row3 : List (Int × Int) := [
  (189706593518054, 475312753547050), (902680336957273, 893763320065974), (1843095766984011, 924311761454218),
  (2724197695298421, 886632317863395), (3685894102295023, 1009873850176439),
  (4621354583551230, 810105996892924), (5378645416448770, 810105996892924),
  (6314105897704977, 1009873850176439), (7275802304701580, 886632317863395),
  (8156904233015989, 924311761454218), (9097319663042728, 893763320065974), (9810293406481946, 475312753547050)]

/-- precomputed_ggq_rules_reduced1.cpp L418-433, entry 4 of `S_7_2_precomputed`. -/
def S_7_2_precomputed_row4 : List (Int × Int) := [
  (152045577891971, 380958209330467), (723539660104039, 716509222366313), (1478106904815955, 743659250974447),
  (2197112869078608, 737099296104524), (3005234880223563, 854304443570481),
  (3818977635828651, 755462334235781), (4582526598073827, 812007243417988),
  (5417473401926174, 812007243417988), (6181022364171349, 755462334235781),
  (6994765119776437, 854304443570481), (7802887130921392, 737099296104524),
  (8521893095184044, 743659250974447), (9276460339895961, 716509222366313), (9847954422108028, 380958209330467)]

/-- precomputed_ggq_rules_reduced1.cpp L434-452, entry 5 of `S_7_2_precomputed`. -/
def S_7_2_precomputed_row5 : List (Int × Int) := [
  (126695864917520, 317442985896995), (602905956095768, 597043952103449), (1231641202605633, 619580731089417),
  (1830355681204354, 613349093699632), (2502507045094485, 710316367283382),
  (3177249105756839, 621801790068179), (3796446858904077, 650785521661077),
  (4459512926183412, 631738236204629), (5000000000000000, 475882643986479),
  (5540487073816587, 631738236204629), (6203553141095923, 650785521661077),
  (6822750894243161, 621801790068179), (7497492954905514, 710316367283382),
  (8169644318795646, 613349093699632), (8768358797394367, 619580731089417),
  (9397094043904232, 597043952103449), (9873304135082479, 317442985896995)]

/-- precomputed_ggq_rules_reduced1.cpp L453-473, entry 6 of `S_7_2_precomputed`. -/
def S_7_2_precomputed_row6 : List (Int × Int) := [
  (108604016507725, 272113088259628), (516814203858908, 511792474784913), (1055791067655810, 531185677350812),
  (1569368439461605, 526502811474507), (2146603174396843, 610223371800222),
  (2727860743839332, 539645582293692), (3273319347972278, 580108252319605),
  (3869861887372547, 580276702337784), (4416152476390308, 541412465116946),
  (5000000000000000, 613479148523783), (5583847523609692, 541412465116946),
  (6130138112627453, 580276702337784), (6726680652027721, 580108252319605),
  (7272139256160667, 539645582293692), (7853396825603156, 610223371800222),
  (8430631560538394, 526502811474507), (8944208932344189, 531185677350812),
  (9483185796141091, 511792474784913), (9891395983492275, 272113088259628)]

/-- precomputed_ggq_rules_reduced1.cpp L474-497, entry 7 of `S_7_2_precomputed`. -/
def S_7_2_precomputed_row7 : List (Int × Int) := [
  (95028197041511, 238098150396327), (452210846950820, 447816714448580), (923813043572607, 464782573250300),
  (1373176705489539, 460657392443968), (1878210649510883, 533887357941267),
  (2386685932279068, 471899214904087), (2863310371039429, 506585083893178),
  (3383807613840527, 505136774707962), (3853257554234004, 456644130499494),
  (4339871858135188, 507622889695047), (4809836730290179, 406869717819790),
  (5190163269709821, 406869717819790), (5660128141864812, 507622889695047),
  (6146742445765996, 456644130499494), (6616192386159473, 505136774707962),
  (7136689628960571, 506585083893178), (7613314067720932, 471899214904087),
  (8121789350489117, 533887357941267), (8626823294510461, 460657392443968),
  (9076186956427392, 464782573250300), (9547789153049180, 447816714448580), (9904971802958489, 238098150396327)]

/-- precomputed_ggq_rules_reduced1.cpp L498-523, entry 8 of `S_7_2_precomputed`. -/
def S_7_2_precomputed_row8 : List (Int × Int) := [
  (84469790662897, 211643513206468), (401966603229459, 398060813966929), (821170830996164, 413144416423244),
  (1220619900341653, 409502191399776), (1669580256435399, 474618186446263),
  (2121669495177265, 419724383785132), (2545915170426321, 451195453501448),
  (3009892916680334, 451326709789046), (3434786874018859, 421101136766957),
  (3888894204751351, 477155097390521), (4343007769705385, 421121600486932),
  (4767952130097043, 451406496837284), (5232047869902956, 451406496837284),
  (5656992230294614, 421121600486932), (6111105795248648, 477155097390521),
  (6565213125981141, 421101136766957), (6990107083319665, 451326709789046),
  (7454084829573678, 451195453501448), (7878330504822735, 419724383785132),
  (8330419743564601, 474618186446263), (8779380099658347, 409502191399776),
  (9178829169003835, 413144416423244), (9598033396770541, 398060813966929), (9915530209337103, 211643513206468)]

/-- precomputed_ggq_rules_reduced1.cpp L524-552, entry 9 of `S_7_2_precomputed`. -/
def S_7_2_precomputed_row9 : List (Int × Int) := [
  (76022801954962, 190479137528846), (361769894867959, 358254680899625), (739053622116424, 371829826097392),
  (1098557282118655, 368550982916417), (1502620191546303, 427154602965324),
  (1909496701943948, 377743099904883), (2291297959590461, 406045132477326),
  (2708832540560630, 406112874822754), (3090968464941317, 378453947091821),
  (3498886612404555, 428462794501038), (3905549091188952, 374344896375586),
  (4277704641683544, 390663105435392), (4675649718559936, 379115538248481),
  (5000000000000000, 285578761470230), (5324350281440065, 379115538248481),
  (5722295358316457, 390663105435392), (6094450908811049, 374344896375586),
  (6501113387595445, 428462794501038), (6909031535058684, 378453947091821),
  (7291167459439372, 406112874822754), (7708702040409539, 406045132477326),
  (8090503298056053, 377743099904883), (8497379808453698, 427154602965324),
  (8901442717881345, 368550982916417), (9260946377883577, 371829826097392),
  (9638230105132042, 358254680899625), (9923977198045040, 190479137528846)]

/-- precomputed_ggq_rules_reduced1.cpp L553-583, entry 10 of `S_7_2_precomputed`. -/
def S_7_2_precomputed_row10 : List (Int × Int) := [
  (69111646906075, 173162874441828), (328881766278988, 325686120518763), (671867043543206, 338027249801889),
  (998689009374890, 335047247515911), (1366020209825217, 388323970741254), (1735911405186404, 343410859523184),
  (2083021503257982, 369159916719075), (2462639659605456, 369267308584353),
  (2810280172059096, 344537297524512), (3181822539085919, 390399632068499),
  (3553370016135992, 344554071084176), (3901051842617338, 369332707893059),
  (4280766715250866, 369332903935093), (4628449509424963, 344556125365429),
  (5000000000000000, 390403428565951), (5371550490575037, 344556125365429),
  (5719233284749135, 369332903935093), (6098948157382662, 369332707893059),
  (6446629983864008, 344554071084176), (6818177460914081, 390399632068499),
  (7189719827940904, 344537297524512), (7537360340394544, 369267308584353),
  (7916978496742019, 369159916719075), (8264088594813596, 343410859523184),
  (8633979790174784, 388323970741254), (9001310990625110, 335047247515911),
  (9328132956456794, 338027249801889), (9671118233721012, 325686120518763), (9930888353093925, 173162874441828)]

/-- precomputed_ggq_rules_reduced1.cpp L584-617, entry 11 of `S_7_2_precomputed`. -/
def S_7_2_precomputed_row11 : List (Int × Int) := [
  (63352342611585, 158732633930769), (301474950500941, 298545608408791), (615878118216936, 309858306371288),
  (915464900133739, 307126603984049), (1252185110773090, 355963569255285), (1591251887674570, 314792934066573),
  (1909435350195208, 338395359189420), (2257416843855384, 338491783345189),
  (2576076556386972, 315804351602112), (2916625880812559, 357827172500159),
  (3257127464182595, 315647662291463), (3575401457632743, 337881783809369),
  (3922488170053040, 336817989468996), (4235493890155744, 304447039006355),
  (4559910844268745, 338418523544591), (4873223468778557, 271248679225589),
  (5126776531221442, 271248679225589), (5440089155731254, 338418523544591),
  (5764506109844256, 304447039006355), (6077511829946960, 336817989468996),
  (6424598542367257, 337881783809369), (6742872535817404, 315647662291463),
  (7083374119187440, 357827172500159), (7423923443613027, 315804351602112),
  (7742583156144616, 338491783345189), (8090564649804791, 338395359189420),
  (8408748112325429, 314792934066573), (8747814889226909, 355963569255285),
  (9084535099866261, 307126603984049), (9384121881783064, 309858306371288),
  (9698525049499058, 298545608408791), (9936647657388413, 158732633930769)]

/-- precomputed_ggq_rules_reduced1.cpp L618-653, entry 12 of `S_7_2_precomputed`. -/
def S_7_2_precomputed_row12 : List (Int × Int) := [
  (58479085843602, 146522432220008), (278284571466837, 275580563515877), (568502882998099, 286023057524677),
  (845044546394145, 283501517128858), (1155863254467513, 328581821396465), (1468848112080867, 290578419596637),
  (1762556656603188, 312366083378014), (2083772019666931, 312456953418417),
  (2377929376361409, 291531559449686), (2692311379238768, 330338150222494),
  (3006697705996288, 291545752508763), (3300890020830110, 312512291478497),
  (3622187221022826, 312512457662502), (3916380356165705, 291547493914302),
  (4230769237475611, 330341368497372), (4545158126651816, 291547519735573),
  (4839351325396738, 312512558351857), (5160648674603262, 312512558351857),
  (5454841873348185, 291547519735573), (5769230762524389, 330341368497372),
  (6083619643834295, 291547493914302), (6377812778977174, 312512457662502),
  (6699109979169890, 312512291478497), (6993302294003713, 291545752508763),
  (7307688620761233, 330338150222494), (7622070623638592, 291531559449686),
  (7916227980333069, 312456953418417), (8237443343396812, 312366083378014),
  (8531151887919134, 290578419596637), (8844136745532487, 328581821396465),
  (9154955453605855, 283501517128858), (9431497117001901, 286023057524677),
  (9721715428533164, 275580563515877), (9941520914156398, 146522432220008)]

/-- precomputed_ggq_rules_reduced1.cpp L654-692, entry 13 of `S_7_2_precomputed`. -/
def S_7_2_precomputed_row13 : List (Int × Int) := [
  (54302008270795, 136056544172590), (258407102013820, 255896237483201), (527895534048801, 265592838936526),
  (784684220834034, 263251407474749), (1073301590779768, 305111688999543), (1363930382182772, 269822806682481),
  (1636659719113496, 290054180215578), (1934931068564449, 290138493851619),
  (2208076835413547, 270707176796837), (2500001966258603, 306741293684272),
  (2791929402883709, 270714745442423), (3065093811258037, 290168001957415),
  (3363408785438880, 290132164333913), (3636396248993304, 270339051911552),
  (3927772734850925, 306047827633911), (4218248306825700, 267390860585685),
  (4484074531167490, 279045325490671), (4768321152003018, 270796907535819),
  (5000000000000000, 203984893622432), (5231678847996982, 270796907535819),
  (5515925468832510, 279045325490671), (5781751693174298, 267390860585685),
  (6072227265149075, 306047827633911), (6363603751006696, 270339051911552),
  (6636591214561119, 290132164333913), (6934906188741963, 290168001957415),
  (7208070597116290, 270714745442423), (7499998033741397, 306741293684272),
  (7791923164586453, 270707176796837), (8065068931435551, 290138493851619),
  (8363340280886504, 290054180215578), (8636069617817228, 269822806682481),
  (8926698409220231, 305111688999543), (9215315779165966, 263251407474749),
  (9472104465951198, 265592838936526), (9741592897986179, 255896237483201), (9945697991729204, 136056544172590)]

/-- precomputed_ggq_rules_reduced1.cpp L693-733, entry 14 of `S_7_2_precomputed`. -/
def S_7_2_precomputed_row14 : List (Int × Int) := [
  (50681874397789, 126986107924007), (241179961937925, 238836488380426), (492702498598352, 247886649854720),
  (732371940208259, 245701314845011), (1001748153871845, 284770911876936), (1273001697136752, 251834630317086),
  (1527549102389430, 270717272260946), (1805935750378008, 270796026295962),
  (2060872126179893, 252660684856404), (2333336528673618, 286293063526178),
  (2605804678530171, 252672985507679), (2860771351386338, 270843985948322),
  (3139228924887122, 270844129974937), (3394196308680161, 252674494730814),
  (3666666672489454, 286295852706984), (3939137043128629, 252674517150029),
  (4194104482143886, 270844217398064), (4472562185025309, 270844217660043),
  (4727529625333731, 252674519895244), (5000000000000000, 286295857780414),
  (5272470374666268, 252674519895244), (5527437814974692, 270844217660043),
  (5805895517856113, 270844217398064), (6060862956871370, 252674517150029),
  (6333333327510545, 286295852706984), (6605803691319838, 252674494730814),
  (6860771075112878, 270844129974937), (7139228648613662, 270843985948322),
  (7394195321469827, 252672985507679), (7666663471326381, 286293063526178),
  (7939127873820107, 252660684856404), (8194064249621992, 270796026295962),
  (8472450897610569, 270717272260946), (8726998302863248, 251834630317086),
  (8998251846128155, 284770911876936), (9267628059791740, 245701314845011),
  (9507297501401647, 247886649854720), (9758820038062075, 238836488380426), (9949318125602211, 126986107924007)]

/-- precomputed_ggq_rules_reduced1.cpp L734-777, entry 15 of `S_7_2_precomputed`. -/
def S_7_2_precomputed_row15 : List (Int × Int) := [
  (47514257247400, 119049476177425), (226106214314179, 223909207853825), (461908592429080, 232393734230672),
  (686598693910902, 230344982613114), (939138894143377, 266972729788151), (1193439090746242, 236094965438686),
  (1432077282085399, 253797441062028), (1693064762092260, 253871270211116),
  (1932067599703768, 236869362661138), (2187502934426816, 268399693534167),
  (2442941710512238, 236880658868824), (2681972371160802, 253915313465383),
  (2943024983911265, 253913934698511), (3182048838675612, 236866210773030),
  (3437466420438052, 268372993627737), (3692844689659725, 236737182949377),
  (3931550903401884, 253411554842964), (4191866058865188, 252613574320082),
  (4426620402382583, 228335303337983), (4669933128106811, 253813897118968),
  (4904917600192525, 203436512426818), (5095082399807475, 203436512426818),
  (5330066871893189, 253813897118968), (5573379597617416, 228335303337983),
  (5808133941134811, 252613574320082), (6068449096598116, 253411554842964),
  (6307155310340276, 236737182949377), (6562533579561948, 268372993627737),
  (6817951161324388, 236866210773030), (7056975016088735, 253913934698511),
  (7318027628839199, 253915313465383), (7557058289487761, 236880658868824),
  (7812497065573184, 268399693534167), (8067932400296233, 236869362661138),
  (8306935237907740, 253871270211116), (8567922717914601, 253797441062028),
  (8806560909253758, 236094965438686), (9060861105856622, 266972729788151),
  (9313401306089099, 230344982613114), (9538091407570920, 232393734230672),
  (9773893785685821, 223909207853825), (9952485742752600, 119049476177425)]

/-- precomputed_ggq_rules_reduced1.cpp L778-823, entry 16 of `S_7_2_precomputed`. -/
def S_7_2_precomputed_row16 : List (Int × Int) := [
  (44719300939225, 112046565815301), (212805848768757, 210738077982729), (434737498763252, 218723514577694),
  (646210535477875, 216795277804421), (883895429886922, 251268451656120), (1123236791591252, 222207026750370),
  (1347837443284791, 238868181406717), (1593472720921772, 238937670261143),
  (1818416581923435, 222935898402710), (2058826348829663, 252611526640745),
  (2299239422232505, 222946751918540), (2524210015929122, 238979987601461),
  (2769907874900403, 238980114683769), (2994879095894265, 222948083586021),
  (3235294122784830, 252613987682648), (3475709155701781, 222948103367747),
  (3700680425421290, 238980191822078), (3946378398552337, 238980192053657),
  (4171349669414954, 222948105794409), (4411764705891698, 252613992167361),
  (4652179742379404, 222948105830391), (4877151013330651, 238980192193968),
  (5122848986669348, 238980192193968), (5347820257620597, 222948105830391),
  (5588235294108301, 252613992167361), (5828650330585046, 222948105794409),
  (6053621601447664, 238980192053657), (6299319574578710, 238980191822078),
  (6524290844298218, 222948103367747), (6764705877215170, 252613987682648),
  (7005120904105735, 222948083586021), (7230092125099598, 238980114683769),
  (7475789984070879, 238979987601461), (7700760577767495, 222946751918540),
  (7941173651170337, 252611526640745), (8181583418076565, 222935898402710),
  (8406527279078227, 238937670261143), (8652162556715208, 238868181406717),
  (8876763208408749, 222207026750370), (9116104570113077, 251268451656120),
  (9353789464522124, 216795277804421), (9565262501236748, 218723514577694),
  (9787194151231241, 210738077982729), (9955280699060775, 112046565815301)]

/-- precomputed_ggq_rules_reduced1.cpp L824-872, entry 17 of `S_7_2_precomputed`. -/
def S_7_2_precomputed_row17 : List (Int × Int) := [
  (42234895331473, 105821756603295), (200983301614849, 199030406983593), (410585415498395, 206572208211992),
  (610309950172390, 204751095702350), (834790128222775, 237309093227524), (1060834747603179, 209862191914585),
  (1272957585277120, 225597726827338), (1504946458517160, 225663355096752),
  (1717393437855885, 210550569721777), (1944447105162518, 238577551132268),
  (2171503892848770, 210560812311816), (2383976100143945, 225703290462416),
  (2616024032082711, 225703359394529), (2828496579637250, 210561534636804),
  (3055554426936569, 238578886051349), (3282610950509600, 210557189501160),
  (3495072795501635, 225686416619352), (3727095661009905, 225658423108742),
  (3939419290885477, 210263728027814), (4166045455596786, 238037203486566),
  (4391970903829155, 207970671681436), (4598724635050755, 217035253513997),
  (4819805340339727, 210619817106242), (5000000000000000, 158654917352601),
  (5180194659660272, 210619817106242), (5401275364949244, 217035253513997),
  (5608029096170843, 207970671681436), (5833954544403214, 238037203486566),
  (6060580709114523, 210263728027814), (6272904338990094, 225658423108742),
  (6504927204498365, 225686416619352), (6717389049490399, 210557189501160),
  (6944445573063431, 238578886051349), (7171503420362749, 210561534636804),
  (7383975967917289, 225703359394529), (7616023899856055, 225703290462416),
  (7828496107151230, 210560812311816), (8055552894837481, 238577551132268),
  (8282606562144114, 210550569721777), (8495053541482839, 225663355096752),
  (8727042414722880, 225597726827338), (8939165252396820, 209862191914585),
  (9165209871777225, 237309093227524), (9389690049827610, 204751095702350),
  (9589414584501605, 206572208211992), (9799016698385150, 199030406983593), (9957765104668527, 105821756603295)]

/-- precomputed_ggq_rules_reduced1.cpp L873-923, entry 18 of `S_7_2_precomputed`. -/
def S_7_2_precomputed_row18 : List (Int × Int) := [
  (40012006103517, 100252190466322), (190405233108888, 188555122405600), (388975656788173, 195699986727410),
  (578188373848625, 193974722246061), (790853805688299, 224819140955476), (1005001339844804, 198816813408226),
  (1205959817675866, 213724162311273), (1425738750298428, 213786336549444),
  (1627004310142021, 199468961728740), (1842107785794962, 226020839625930),
  (2057214219892241, 199478672769220), (2258503698462899, 213824199432886),
  (2478338624910887, 213824313138109), (2679628664747500, 199479864261177),
  (2894736846702216, 226023041610790), (3109845034048961, 199479881960615),
  (3311135117482207, 213824382156596), (3530970146073144, 213824382363800),
  (3732260230529174, 199479884131847), (3947368421061008, 226023045623442),
  (4162476611602668, 199479884164100), (4363766696138143, 213824382489570),
  (4583601724915211, 213824382489946), (4784891809452546, 199479884168049),
  (5000000000000000, 226023045630741), (5215108190547453, 199479884168049),
  (5416398275084788, 213824382489946), (5636233303861857, 213824382489570),
  (5837523388397331, 199479884164100), (6052631578938991, 226023045623442),
  (6267739769470826, 199479884131847), (6469029853926856, 213824382363800),
  (6688864882517792, 213824382156596), (6890154965951037, 199479881960615),
  (7105263153297784, 226023041610790), (7320371335252499, 199479864261177),
  (7521661375089113, 213824313138109), (7741496301537101, 213824199432886),
  (7942785780107758, 199478672769220), (8157892214205038, 226020839625930),
  (8372995689857978, 199468961728740), (8574261249701572, 213786336549444),
  (8794040182324134, 213724162311273), (8994998660155196, 198816813408226),
  (9209146194311701, 224819140955476), (9421811626151375, 193974722246061),
  (9611024343211826, 195699986727410), (9809594766891110, 188555122405600), (9959987993896482, 100252190466322)]

/-- precomputed_ggq_rules_reduced1.cpp L924-977, entry 19 of `S_7_2_precomputed`. -/
def S_7_2_precomputed_row19 : List (Int × Int) := [
  (38011405798341, 95239580943004), (180884971453440, 179127366285316), (369526873948754, 185914987391028),
  (549278955156144, 184275986133679), (751311115403721, 213578183907562), (954751272852098, 188875972737109),
  (1145661826790025, 203037954193257), (1354451812777839, 203097019715497),
  (1545654094607820, 189495513599455), (1750002396415988, 214719797566609),
  (1954353508641622, 189504738744371), (2145578512416117, 203132988115142),
  (2354421690555524, 203133093928111), (2545647216638644, 189505847535182),
  (2749999955403344, 214721846712068), (2954352641858251, 189505675827341),
  (3145577744997105, 203132424359816), (3354419932233038, 203131213523200),
  (3545639058433505, 189492987496019), (3749973131991297, 214698398713327),
  (3954275750403381, 189389748453272), (4145240722444780, 202729244190699),
  (4353492846992036, 202090859575925), (4541296321883859, 182668242705495),
  (4735946502478021, 203051117701677), (4923934080151992, 162749209945839),
  (5076065919848008, 162749209945839), (5264053497521979, 203051117701677),
  (5458703678116142, 182668242705495), (5646507153007965, 202090859575925),
  (5854759277555220, 202729244190699), (6045724249596619, 189389748453272),
  (6250026868008705, 214698398713327), (6454360941566496, 189492987496019),
  (6645580067766963, 203131213523200), (6854422255002897, 203132424359816),
  (7045647358141749, 189505675827341), (7250000044596656, 214721846712068),
  (7454352783361357, 189505847535182), (7645578309444476, 203133093928111),
  (7854421487583884, 203132988115142), (8045646491358378, 189504738744371),
  (8249997603584012, 214719797566609), (8454345905392181, 189495513599455),
  (8645548187222162, 203097019715497), (8854338173209975, 203037954193257),
  (9045248727147902, 188875972737109), (9248688884596279, 213578183907562),
  (9450721044843857, 184275986133679), (9630473126051247, 185914987391028),
  (9819115028546561, 179127366285316), (9961988594201661, 95239580943004)]

/-- precomputed_ggq_rules_reduced1.cpp L978-1033, entry 20 of `S_7_2_precomputed`. -/
def S_7_2_precomputed_row20 : List (Int × Int) := [
  (36201338855563, 90704362802862), (172271401384232, 170597491700305), (351930356141680, 177061892753371),
  (523122814434471, 175500939175008), (715534395622746, 203407794197812), (909286926526251, 179881878797918),
  (1091106501706736, 193369480186390), (1289954107412863, 193425733068545),
  (1472051518699924, 180471917754574), (1666668949052584, 204495045375841),
  (1861289056092980, 180480703934056), (2043408108133099, 193459989963088),
  (2242306374919374, 193460092839241), (2424425934771548, 180481781950588),
  (2619047623206767, 204497037647858), (2813669316520489, 180481797964366),
  (2995788915817235, 193460155284540), (3194687275018559, 193460155472009),
  (3376806875240682, 180481799928814), (3571428571436150, 204497041278352),
  (3766050267640509, 180481799957995), (3948169867934511, 193460155585801),
  (4147068227304240, 193460155586143), (4329187827599927, 180481799961575),
  (4523809523809537, 204497041284968), (4718431220019164, 180481799961628),
  (4900550820314982, 193460155586350), (5099449179685017, 193460155586350),
  (5281568779980835, 180481799961628), (5476190476190462, 204497041284968),
  (5670812172400073, 180481799961575), (5852931772695760, 193460155586143),
  (6051830132065489, 193460155585801), (6233949732359491, 180481799957995),
  (6428571428563850, 204497041278352), (6623193124759318, 180481799928814),
  (6805312724981442, 193460155472009), (7004211084182764, 193460155284540),
  (7186330683479510, 180481797964366), (7380952376793233, 204497037647858),
  (7575574065228452, 180481781950588), (7757693625080626, 193460092839241),
  (7956591891866901, 193459989963088), (8138710943907019, 180480703934056),
  (8333331050947416, 204495045375841), (8527948481300076, 180471917754574),
  (8710045892587137, 193425733068545), (8908893498293264, 193369480186390),
  (9090713073473748, 179881878797918), (9284465604377253, 203407794197812),
  (9476877185565530, 175500939175008), (9648069643858319, 177061892753371),
  (9827728598615767, 170597491700305), (9963798661144436, 90704362802862)]

/-- precomputed_ggq_rules_reduced1.cpp L1034-1092, entry 21 of `S_7_2_precomputed`. -/
def S_7_2_precomputed_row21 : List (Int × Int) := [
  (34555823453038, 86581437220914), (164440883139494, 162843060259381), (335933521771604, 169013624900945),
  (499344504687447, 167523623757959), (683010104912616, 194161985370634), (867955702593224, 171705429761625),
  (1041510751629086, 184579958359652), (1231319829802992, 184633654292478),
  (1405140086030810, 172268648764251), (1590911269547115, 195199816037883),
  (1776685008079918, 172277035560081), (1950525921360995, 184666354009215),
  (2140383357770251, 184666452133007), (2314224755405017, 172278063777665),
  (2500000002280144, 195201716276932), (2685775251829783, 172278072556798),
  (2859616671088999, 184666486366999), (3049474158162346, 184666444744984),
  (3223315371969211, 172277636409343), (3409089981712514, 195200910234727),
  (3594863503758768, 172274066040338), (3768695923340560, 184652522976128),
  (3958532813462614, 184629619016098), (4132252147067413, 172033959326773),
  (4317673554571969, 194757711949839), (4502521648585285, 170157822288296),
  (4671683792313805, 177574298330163), (4852568005732345, 172325304905307),
  (5000000000000000, 129808568743172), (5147431994267655, 172325304905307),
  (5328316207686196, 177574298330163), (5497478351414715, 170157822288296),
  (5682326445428031, 194757711949839), (5867747852932588, 172033959326773),
  (6041467186537386, 184629619016098), (6231304076659441, 184652522976128),
  (6405136496241232, 172274066040338), (6590910018287487, 195200910234727),
  (6776684628030789, 172277636409343), (6950525841837655, 184666444744984),
  (7140383328911002, 184666486366999), (7314224748170217, 172278072556798),
  (7499999997719856, 195201716276932), (7685775244594985, 172278063777665),
  (7859616642229750, 184666452133007), (8049474078639005, 184666354009215),
  (8223314991920083, 172277035560081), (8409088730452886, 195199816037883),
  (8594859913969191, 172268648764251), (8768680170197009, 184633654292478),
  (8958489248370913, 184579958359652), (9132044297406777, 171705429761625),
  (9316989895087384, 194161985370634), (9500655495312553, 167523623757959),
  (9664066478228396, 169013624900945), (9835559116860507, 162843060259381), (9965444176546963, 86581437220914)]

/-- precomputed_ggq_rules_reduced1.cpp L1093-1153, entry 22 of `S_7_2_precomputed`. -/
def S_7_2_precomputed_row22 : List (Int × Int) := [
  (33053396346384, 82817026906961), (157291279524734, 155762927204626), (321327716477186, 161665206426991),
  (477633874048864, 160239987942398), (653314013394681, 185720159919741), (830218498132664, 164239976293752),
  (996227675471368, 176554742778878), (1177784185029136, 176606104106062), (1344047038812974, 164778707515046),
  (1521741214352360, 186712867517073), (1699437833824025, 164786729678921),
  (1865720446556308, 176637382140210), (2047323211882906, 176637476070612),
  (2213606288269674, 164787713954885), (2391304351623570, 186714686548044),
  (2569002419431751, 164787728576161), (2735285531833128, 176637533085884),
  (2916888381538684, 176637533257052), (3083171494784970, 164787730369786),
  (3260869565224311, 186714689862843), (3438567635671769, 164787730396430),
  (3604850748983684, 176637533360949), (3786453598843001, 176637533361261),
  (3952736712156456, 164787730399699), (4130434782608708, 186714689868884),
  (4308132853060976, 164787730399747), (4474415966374549, 176637533361450),
  (4656018816234148, 176637533361451), (4822301929547723, 164787730399753),
  (5000000000000000, 186714689868895), (5177698070452277, 164787730399753),
  (5343981183765852, 176637533361451), (5525584033625450, 176637533361450),
  (5691867146939024, 164787730399747), (5869565217391292, 186714689868884),
  (6047263287843544, 164787730399699), (6213546401156999, 176637533361261),
  (6395149251016315, 176637533360949), (6561432364328230, 164787730396430),
  (6739130434775689, 186714689862843), (6916828505215030, 164787730369786),
  (7083111618461315, 176637533257052), (7264714468166872, 176637533085884),
  (7430997580568249, 164787728576161), (7608695648376430, 186714686548044),
  (7786393711730325, 164787713954885), (7952676788117093, 176637476070612),
  (8134279553443693, 176637382140210), (8300562166175974, 164786729678921),
  (8478258785647641, 186712867517073), (8655952961187027, 164778707515046),
  (8822215814970864, 176606104106062), (9003772324528633, 176554742778878),
  (9169781501867336, 164239976293752), (9346685986605319, 185720159919741),
  (9522366125951136, 160239987942398), (9678672283522813, 161665206426991),
  (9842708720475265, 155762927204626), (9966946603653616, 82817026906961)]

/-- precomputed_ggq_rules_reduced1.cpp L1154-1217, entry 23 of `S_7_2_precomputed`. -/
def S_7_2_precomputed_row23 : List (Int × Int) := [
  (31676171498618, 79366317452505), (150737476211203, 149272805237766), (307939061623970, 154929156159200),
  (457732462630162, 153563321778132), (626092596169903, 177981819923085), (795626060710469, 157396643948178),
  (954718188993391, 169198295163088), (1128709843986246, 169247516434967), (1288045078862392, 157912928035188),
  (1458335330420876, 178933164703743), (1628627924080969, 157920615941712),
  (1787982094614755, 169277491215657), (1962018078049729, 169277581228941),
  (2121372692902521, 157921559171059), (2291666670231566, 178934907876854),
  (2461960651742088, 157921572896831), (2621315300403717, 169277634752222),
  (2795351363049723, 169277633077097), (2954706003442695, 157921555343600),
  (3124999959203497, 178934875436738), (3295293867111893, 157921398267210),
  (3454648120600202, 169277020563451), (3628683276777501, 169276011369200),
  (3788032548675595, 157910822942016), (3958310943319461, 178915332266893),
  (4128563125334139, 157824790380907), (4287700602036896, 168941036826062),
  (4461244039159878, 168409049646786), (4617746934903181, 152223535587966),
  (4779955418731673, 169209264751407), (4936611733459990, 135624341621539),
  (5063388266540010, 135624341621539), (5220044581268326, 169209264751407),
  (5382253065096818, 152223535587966), (5538755960840122, 168409049646786),
  (5712299397963103, 168941036826062), (5871436874665861, 157824790380907),
  (6041689056680539, 178915332266893), (6211967451324405, 157910822942016),
  (6371316723222498, 169276011369200), (6545351879399797, 169277020563451),
  (6704706132888107, 157921398267210), (6875000040796502, 178934875436738),
  (7045293996557304, 157921555343600), (7204648636950277, 169277633077097),
  (7378684699596283, 169277634752222), (7538039348257911, 157921572896831),
  (7708333329768433, 178934907876854), (7878627307097479, 157921559171059),
  (8037981921950270, 169277581228941), (8212017905385244, 169277491215657),
  (8371372075919031, 157920615941712), (8541664669579123, 178933164703743),
  (8711954921137607, 157912928035188), (8871290156013752, 169247516434967),
  (9045281811006609, 169198295163088), (9204373939289530, 157396643948178),
  (9373907403830097, 177981819923085), (9542267537369838, 153563321778132),
  (9692060938376029, 154929156159200), (9849262523788795, 149272805237766), (9968323828501382, 79366317452505)]

/-- precomputed_ggq_rules_reduced1.cpp L1218-1283, entry 24 of `S_7_2_precomputed`. -/
def S_7_2_precomputed_row24 : List (Int × Int) := [
  (30409124638673, 76191664754404), (144707977162755, 143301893028256), (295621499159011, 148731989912832),
  (439423164124955, 147420788907006), (601048892323107, 170862547126162), (763801018282051, 151100778190251),
  (916529461433658, 162430363356568), (1083561450226805, 162477615777578), (1236523275707936, 151596410913843),
  (1400001917204171, 171775838115707), (1563482807118103, 151603791304607),
  (1716462810831803, 162506391568994), (1883537354932274, 162506477984963),
  (2036517785208100, 151604696838494), (2200000003493684, 171777511624201),
  (2363482225877211, 151604710290068), (2516462689286478, 162506530439013),
  (2683537311015590, 162506530596488), (2836517775202173, 151604711940204),
  (3000000000006366, 171777514673816), (3163482224818028, 151604711964716),
  (3316462689064989, 162506530692073), (3483537310935562, 162506530692360),
  (3636517775183939, 151604711967723), (3800000000000012, 171777514679373),
  (3963482224816098, 151604711967768), (4116462689064586, 162506530692534),
  (4283537310935416, 162506530692535), (4436517775183906, 151604711967773),
  (4600000000000000, 171777514679383), (4763482224816095, 151604711967773),
  (4916462689064585, 162506530692535), (5083537310935415, 162506530692535),
  (5236517775183905, 151604711967773), (5400000000000000, 171777514679383),
  (5563482224816094, 151604711967773), (5716462689064584, 162506530692535),
  (5883537310935415, 162506530692534), (6036517775183902, 151604711967768),
  (6199999999999989, 171777514679373), (6363482224816062, 151604711967723),
  (6516462689064438, 162506530692360), (6683537310935012, 162506530692073),
  (6836517775181972, 151604711964716), (6999999999993634, 171777514673816),
  (7163482224797828, 151604711940204), (7316462688984410, 162506530596488),
  (7483537310713523, 162506530439013), (7636517774122790, 151604710290068),
  (7799999996506316, 171777511624201), (7963482214791899, 151604696838494),
  (8116462645067726, 162506477984963), (8283537189168197, 162506391568994),
  (8436517192881897, 151603791304607), (8599998082795830, 171775838115707),
  (8763476724292065, 151596410913843), (8916438549773196, 162477615777578),
  (9083470538566343, 162430363356568), (9236198981717949, 151100778190251),
  (9398951107676894, 170862547126162), (9560576835875045, 147420788907006),
  (9704378500840989, 148731989912832), (9855292022837244, 143301893028256), (9969590875361327, 76191664754404)]

/-- precomputed_ggq_rules_reduced1.cpp L1284-1352, entry 25 of `S_7_2_precomputed`. -/
def S_7_2_precomputed_row25 : List (Int × Int) := [
  (29239542921801, 73261216110004), (139142285733418, 137790281757938), (284251441499050, 143011528762338),
  (422522273197072, 141750758564429), (577931627233757, 164290910698233), (734424056040434, 145289209798319),
  (881278328301594, 156183041689007), (1041886009833466, 156228476709209), (1188964688180706, 145765779724846),
  (1346155689619390, 165169075111252), (1503348852998163, 145772876254409),
  (1650445010415136, 156256145739345), (1811093610511637, 156256228831506),
  (1958190178083921, 145773746958839), (2115384618741322, 165170684251760),
  (2272579063335995, 145773759883012), (2419675662742644, 156256279228970),
  (2580324337424170, 156256279315934), (2727420937260083, 145773760794283),
  (2884615383191547, 165170685935880), (3041809827452910, 145773755312145),
  (3188906413785413, 156256257938480), (3349555056829650, 156256222568710),
  (3496651468571800, 145773384680521), (3653845369135247, 165170000973189),
  (3811038349332487, 145770363575528), (3958127319749316, 156244442518706),
  (4118758534468226, 156225062244559), (4265751816749317, 145567196353471),
  (4422646853868578, 164794987034489), (4579056779572161, 143979695782410),
  (4722193978111681, 150255175510138), (4875249851004292, 145813719535260),
  (5000000000000000, 109838019705761), (5124750148995708, 145813719535260),
  (5277806021888320, 150255175510138), (5420943220427840, 143979695782410),
  (5577353146131423, 164794987034489), (5734248183250683, 145567196353471),
  (5881241465531775, 156225062244559), (6041872680250684, 156244442518706),
  (6188961650667514, 145770363575528), (6346154630864753, 165170000973189),
  (6503348531428200, 145773384680521), (6650444943170351, 156256222568710),
  (6811093586214587, 156256257938480), (6958190172547091, 145773755312145),
  (7115384616808453, 165170685935880), (7272579062739917, 145773760794283),
  (7419675662575831, 156256279315934), (7580324337257356, 156256279228970),
  (7727420936664005, 145773759883012), (7884615381258678, 165170684251760),
  (8041809821916079, 145773746958839), (8188906389488364, 156256228831506),
  (8349554989584865, 156256145739345), (8496651147001838, 145772876254409),
  (8653844310380610, 165169075111252), (8811035311819295, 145765779724846),
  (8958113990166535, 156228476709209), (9118721671698407, 156183041689007),
  (9265575943959568, 145289209798319), (9422068372766245, 164290910698233),
  (9577477726802929, 141750758564429), (9715748558500951, 143011528762338),
  (9860857714266582, 137790281757938), (9970760457078199, 73261216110004)]

/-- precomputed_ggq_rules_reduced1.cpp L1353-1423, entry 26 of `S_7_2_precomputed`. -/
def S_7_2_precomputed_row26 : List (Int × Int) := [
  (28156596887660, 70547837735560), (133988867743292, 132686937989126), (273723610332418, 137714805474844),
  (406873300115699, 136500730469450), (556526752151025, 158206062153854), (707223165075973, 139908127953937),
  (848638390216350, 150398484589415), (1003297639098893, 150442236831090), (1144928958988830, 140367047142447),
  (1296298071485343, 159051701958988), (1447669265850095, 140373880837599),
  (1589317417436855, 150468881082401), (1744016069381735, 150468961097188),
  (1885664615933426, 140374719294902), (2037037040271930, 159053251503889),
  (2188409468404825, 140374731750063), (2330058045635627, 150469009665753),
  (2484756769458879, 150469009811563), (2626405347409419, 140374733277966),
  (2777777777783673, 159053254327607), (2929150208164840, 140374733300663),
  (3070798786171286, 150469009900068), (3225497510125520, 150469009900333),
  (3367146088133277, 140374733303447), (3518518518518529, 159053254332753),
  (3669890948903794, 140374733303489), (3811539526911653, 150469009900495),
  (3966238250866125, 150469009900495), (4107886828873987, 140374733303494),
  (4259259259259259, 159053254332762), (4410631689644531, 140374733303494),
  (4552280267652393, 150469009900496), (4706978991606866, 150469009900496),
  (4848627569614727, 140374733303494), (5000000000000000, 159053254332762),
  (5151372430385273, 140374733303494), (5293021008393134, 150469009900496),
  (5447719732347607, 150469009900496), (5589368310355468, 140374733303494),
  (5740740740740741, 159053254332762), (5892113171126013, 140374733303494),
  (6033761749133875, 150469009900495), (6188460473088347, 150469009900495),
  (6330109051096204, 140374733303489), (6481481481481470, 159053254332753),
  (6632853911866723, 140374733303447), (6774502489874480, 150469009900333),
  (6929201213828714, 150469009900068), (7070849791835159, 140374733300663),
  (7222222222216327, 159053254327607), (7373594652590580, 140374733277966),
  (7515243230541120, 150469009811563), (7669941954364372, 150469009665753),
  (7811590531595175, 140374731750063), (7962962959728069, 159053251503889),
  (8114335384066573, 140374719294902), (8255983930618265, 150468961097188),
  (8410682582563145, 150468881082401), (8552330734149903, 140373880837599),
  (8703701928514657, 159051701958988), (8855071041011170, 140367047142447),
  (8996702360901107, 150442236831090), (9151361609783650, 150398484589415),
  (9292776834924027, 139908127953937), (9443473247848975, 158206062153854),
  (9593126699884300, 136500730469450), (9726276389667581, 137714805474844),
  (9866011132256707, 132686937989126), (9971843403112339, 70547837735560)]

/-- precomputed_ggq_rules_reduced1.cpp L1424-1497, entry 27 of `S_7_2_precomputed`. -/
def S_7_2_precomputed_row27 : List (Int × Int) := [
  (27151004141672, 68028272102147), (129203551038174, 127948118775228), (263947767106260, 132796419565029),
  (392342110825853, 131625704381256), (536650796717060, 152555845648359), (681965194894688, 134911409098439),
  (818329876280052, 145027110139793), (967465580559647, 145069299801408), (1104038639024943, 135353938315931),
  (1250001711789438, 153371284031881), (1395966792069734, 135360527950541),
  (1532556081099821, 145094992472312), (1681729781189523, 145095069629423),
  (1818319451078625, 135361336462885), (1964285717404959, 153372778235792),
  (2110251987390034, 135361348472772), (2246841686861464, 145095116461653),
  (2396015456259871, 145095116599382), (2532605156411154, 135361349916005),
  (2678571428513380, 153372780903031), (2824537700547519, 135361349692506),
  (2961127400148285, 145095115727851), (3110301168256880, 145095114151684),
  (3246890860077459, 135361333176228), (3392857107883038, 153372750379309),
  (3538823314665613, 135361198517477), (3675412674799813, 145094589054798),
  (3824585665809157, 145093724030899), (3961170756007623, 135352133950344),
  (4107123665702384, 153355999085918), (4253054107429259, 135278391755068),
  (4389457658888767, 144806602993769), (4538209176422752, 144350613982960),
  (4672354515631298, 130477316218256), (4811390358912863, 145036512644064),
  (4945667200108563, 116249435675605), (5054332799891437, 116249435675605),
  (5188609641087137, 145036512644064), (5327645484368702, 130477316218256),
  (5461790823577247, 144350613982960), (5610542341111232, 144806602993769),
  (5746945892570740, 135278391755068), (5892876334297615, 153355999085918),
  (6038829243992376, 135352133950344), (6175414334190843, 145093724030899),
  (6324587325200186, 145094589054798), (6461176685334387, 135361198517477),
  (6607142892116962, 153372750379309), (6753109139922541, 135361333176228),
  (6889698831743118, 145095114151684), (7038872599851714, 145095115727851),
  (7175462299452480, 135361349692506), (7321428571486619, 153372780903031),
  (7467394843588846, 135361349916005), (7603984543740128, 145095116599382),
  (7753158313138535, 145095116461653), (7889748012609965, 135361348472772),
  (8035714282595041, 153372778235792), (8181680548921374, 135361336462885),
  (8318270218810477, 145095069629423), (8467443918900178, 145094992472312),
  (8604033207930266, 135360527950541), (8749998288210562, 153371284031881),
  (8895961360975058, 135353938315931), (9032534419440352, 145069299801408),
  (9181670123719948, 145027110139793), (9318034805105311, 134911409098439),
  (9463349203282940, 152555845648359), (9607657889174147, 131625704381256),
  (9736052232893739, 132796419565029), (9870796448961825, 127948118775228), (9972848995858327, 68028272102147)]

/-- precomputed_ggq_rules_reduced1.cpp L1498-1573, entry 28 of `S_7_2_precomputed`. -/
def S_7_2_precomputed_row28 : List (Int × Int) := [
  (26214762619546, 65682469615866), (124748256174789, 123536114679531), (254846119964665, 128217232683476),
  (378813072521513, 127086886988799), (518145596830265, 147295299246691), (658449153691423, 130259291543320),
  (790111604684188, 140026175307386), (934104698471384, 140066910153084), (1065968341127531, 130686561132623),
  (1206898204486354, 148082619065265), (1347830006136296, 130692923538454),
  (1479709319682589, 140091716869822), (1623739099079546, 140091791366347),
  (1755618780351811, 130693704171116), (1896551727149728, 148084061745001),
  (2037484677480354, 130693715767300), (2169364387315929, 140091836585356),
  (2313394233634129, 140091836721110), (2445273944139804, 130693717189831),
  (2586206896557213, 148084064373979), (2727139848981058, 130693717210962),
  (2859019559538784, 140091836803511), (3003049405978933, 140091836803759),
  (3134929116537878, 130693717213554), (3275862068965527, 148084064378770),
  (3416795021393188, 130693717213593), (3548674731952229, 140091836803909),
  (3692704578392600, 140091836803909), (3824584288951643, 130693717213598),
  (3965517241379310, 148084064378779), (4106450193806978, 130693717213598),
  (4238329904366022, 140091836803910), (4382359750806392, 140091836803910),
  (4514239461365436, 130693717213598), (4655172413793103, 148084064378779),
  (4796105366220771, 130693717213598), (4927985076779814, 140091836803910),
  (5072014923220185, 140091836803910), (5203894633779229, 130693717213598),
  (5344827586206896, 148084064378779), (5485760538634564, 130693717213598),
  (5617640249193607, 140091836803910), (5761670095633978, 140091836803910),
  (5893549806193022, 130693717213598), (6034482758620690, 148084064378779),
  (6175415711048358, 130693717213598), (6307295421607401, 140091836803909),
  (6451325268047772, 140091836803909), (6583204978606811, 130693717213593),
  (6724137931034473, 148084064378770), (6865070883462122, 130693717213554),
  (6996950594021067, 140091836803759), (7140980440461216, 140091836803511),
  (7272860151018941, 130693717210962), (7413793103442787, 148084064373979),
  (7554726055860196, 130693717189831), (7686605766365870, 140091836721110),
  (7830635612684071, 140091836585356), (7962515322519647, 130693715767300),
  (8103448272850272, 148084061745001), (8244381219648189, 130693704171116),
  (8376260900920454, 140091791366347), (8520290680317412, 140091716869822),
  (8652169993863704, 130692923538454), (8793101795513646, 148082619065265),
  (8934031658872469, 130686561132623), (9065895301528617, 140066910153084),
  (9209888395315813, 140026175307386), (9341550846308577, 130259291543320),
  (9481854403169736, 147295299246691), (9621186927478487, 127086886988799),
  (9745153880035334, 128217232683476), (9875251743825211, 123536114679531), (9973785237380454, 65682469615866)]

/-- precomputed_ggq_rules_reduced1.cpp L1574-1652, entry 29 of `S_7_2_precomputed`. -/
def S_7_2_precomputed_row29 : List (Int × Int) := [
  (25340937198894, 63493053962004), (120589980968963, 119418244190213), (246351249299176, 123943324927360),
  (366185970104129, 122850657422505), (500874076935922, 142385455938468), (636500848568376, 125917315158543),
  (763774551194715, 135358636130473), (902967875189004, 135398013147981), (1030436063089947, 126330342428202),
  (1166668264336809, 143146531763089), (1302902339265086, 126336492753839),
  (1430385675693169, 135421992974161), (1569614462443561, 135422064987469),
  (1697098154340082, 126337247365410), (1833333336244733, 143147926353497),
  (1969568521564330, 126337258575039), (2097052241072013, 135422108699116),
  (2236281092512848, 135422108830243), (2363764812667791, 126337259949085),
  (2500000000003047, 143147928892872), (2636235187341877, 126337259960817),
  (2763718907525717, 135422108875991), (2902947759034257, 135422108820370),
  (3030431478943544, 126337259377978), (3166666665427378, 143147927815727),
  (3302901850457580, 126337254606402), (3430385558613688, 135422090213733),
  (3569614382585575, 135422059559694), (3697097939428866, 126336933389826),
  (3833332653250538, 143147334176773), (3969566569421485, 126334315098796),
  (4097043677116073, 135411850182879), (4236257396539129, 135395053945284),
  (4363651574516075, 126158236839675), (4499627273352767, 142822322096557),
  (4635182542295873, 124782403011422), (4759234781030123, 130221152108787),
  (4891883204203719, 126371890263892), (5000000000000000, 95192950411660), (5108116795796280, 126371890263892),
  (5240765218969877, 130221152108787), (5364817457704127, 124782403011422),
  (5500372726647232, 142822322096557), (5636348425483925, 126158236839675),
  (5763742603460872, 135395053945284), (5902956322883928, 135411850182879),
  (6030433430578515, 126334315098796), (6166667346749461, 143147334176773),
  (6302902060571134, 126336933389826), (6430385617414425, 135422059559694),
  (6569614441386311, 135422090213733), (6697098149542420, 126337254606402),
  (6833333334572622, 143147927815727), (6969568521056455, 126337259377978),
  (7097052240965743, 135422108820370), (7236281092474283, 135422108875991),
  (7363764812658123, 126337259960817), (7499999999996952, 143147928892872),
  (7636235187332209, 126337259949085), (7763718907487152, 135422108830243),
  (7902947758927986, 135422108699116), (8030431478435670, 126337258575039),
  (8166666663755268, 143147926353497), (8302901845659917, 126337247365410),
  (8430385537556438, 135422064987469), (8569614324306831, 135421992974161),
  (8697097660734914, 126336492753839), (8833331735663191, 143146531763089),
  (8969563936910053, 126330342428202), (9097032124810996, 135398013147981),
  (9236225448805285, 135358636130473), (9363499151431625, 125917315158543),
  (9499125923064078, 142385455938468), (9633814029895871, 122850657422505),
  (9753648750700824, 123943324927360), (9879410019031036, 119418244190213), (9974659062801106, 63493053962004)]

/-- precomputed_ggq_rules_reduced1.cpp L1653-1733, entry 30 of `S_7_2_precomputed`. -/
def S_7_2_precomputed_row30 : List (Int × Int) := [
  (24523487611833, 61444890930971), (116699981582867, 115566042764722), (238404434805654, 119945153155510),
  (354373519455609, 118887732989521), (484716848647667, 137792376714647), (615968563130686, 121855466282461),
  (739136662446498, 130992228513361), (873839879215165, 131030335304498), (997196190087045, 122255170091808),
  (1129033804196912, 138528901706215), (1260873231546857, 122261122019845),
  (1384244202283712, 131053541587898), (1518981737848608, 131053611278196),
  (1642353052587178, 122261852289108), (1774193551204584, 138530251309839),
  (1906034053126783, 122261863137151), (2029405394585869, 131053653579849),
  (2164142992754508, 131053653706845), (2287514334840462, 122261864467906),
  (2419354838714812, 138530253769206), (2551195342595184, 122261864487674),
  (2674566684729830, 131053653783930), (2809304283012550, 131053653784161),
  (2932675625148338, 122261864490099), (3064516129032267, 138530253773688),
  (3196356632916208, 122261864490135), (3319727975052085, 131053653784302),
  (3454465573335013, 131053653784302), (3577836915470892, 122261864490140),
  (3709677419354839, 138530253773696), (3841517923238786, 122261864490140),
  (3964889265374665, 131053653784303), (4099626863657593, 131053653784303),
  (4222998205793472, 122261864490140), (4354838709677419, 138530253773696),
  (4486679213561366, 122261864490140), (4610050555697246, 131053653784303),
  (4744788153980173, 131053653784303), (4868159496116053, 122261864490140),
  (5000000000000000, 138530253773696), (5131840503883947, 122261864490140),
  (5255211846019826, 131053653784303), (5389949444302754, 131053653784303),
  (5513320786438634, 122261864490140), (5645161290322580, 138530253773696),
  (5777001794206528, 122261864490140), (5900373136342407, 131053653784303),
  (6035110734625334, 131053653784303), (6158482076761214, 122261864490140),
  (6290322580645161, 138530253773696), (6422163084529108, 122261864490140),
  (6545534426664987, 131053653784302), (6680272024947915, 131053653784302),
  (6803643367083791, 122261864490135), (6935483870967732, 138530253773688),
  (7067324374851662, 122261864490099), (7190695716987450, 131053653784161),
  (7325433315270170, 131053653783930), (7448804657404815, 122261864487674),
  (7580645161285188, 138530253769206), (7712485665159539, 122261864467906),
  (7835857007245491, 131053653706845), (7970594605414131, 131053653579849),
  (8093965946873217, 122261863137151), (8225806448795415, 138530251309839),
  (8357646947412822, 122261852289108), (8481018262151392, 131053611278196),
  (8615755797716288, 131053541587898), (8739126768453143, 122261122019845),
  (8870966195803088, 138528901706215), (9002803809912955, 122255170091808),
  (9126160120784835, 131030335304498), (9260863337553502, 130992228513361),
  (9384031436869313, 121855466282461), (9515283151352333, 137792376714647),
  (9645626480544391, 118887732989521), (9761595565194345, 119945153155510),
  (9883300018417133, 115566042764722), (9975476512388166, 61444890930971)]

/-- precomputed_ggq_rules_reduced1.cpp L1734-1817, entry 31 of `S_7_2_precomputed`. -/
def S_7_2_precomputed_row31 : List (Int × Int) := [
  (23757128623963, 59524738089378), (113053107158402, 111954603928325), (230954296217978, 116196867119400),
  (343299346972621, 115172491333599), (469569447127427, 133486364942314), (596719545532852, 118047482961134),
  (716038641745045, 126898721372319), (846532382989691, 126935637326232), (966033809146825, 118434696026439),
  (1093751497815759, 134199873527896), (1221470943061018, 118440461956724),
  (1340986570962346, 126958118413276), (1471513558540839, 126958185925752),
  (1591029519693828, 118441169405074), (1718750002729441, 134201180956407),
  (1846470488966570, 118441179914115), (1965986476005059, 126958226905476),
  (2096513524230923, 126958227028499), (2216029511876667, 118441181203235),
  (2343750000004872, 134201183338830), (2471470488138793, 118441181221994),
  (2590986475830743, 126958227101649), (2721513524164866, 126958227099360),
  (2841029511845515, 118441181198004), (2968749999944243, 134201183294494),
  (3096470487977571, 118441180983327), (3215986475129434, 126958226262230),
  (3346513522224657, 126958224882860), (3466029502567751, 118441166529238),
  (3593749969397649, 134201156581903), (3721470400332409, 118441048702796),
  (3840986090449836, 126957765422949), (3971512457583012, 126957008527037),
  (4091024411506670, 118433117206551), (4218733207489586, 134186499200178),
  (4346422344000602, 118368592785684), (4465775451527672, 126705777619548),
  (4595933029369908, 126306787235090), (4713310201177386, 114167651690974),
  (4834966564048755, 126906948563556), (4952458800094993, 101718256216155),
  (5047541199905007, 101718256216155), (5165033435951245, 126906948563556),
  (5286689798822614, 114167651690974), (5404066970630091, 126306787235090),
  (5534224548472328, 126705777619548), (5653577655999398, 118368592785684),
  (5781266792510413, 134186499200178), (5908975588493329, 118433117206551),
  (6028487542416988, 126957008527037), (6159013909550164, 126957765422949),
  (6278529599667590, 118441048702796), (6406250030602351, 134201156581903),
  (6533970497432249, 118441166529238), (6653486477775343, 126958224882860),
  (6784013524870566, 126958226262230), (6903529512022428, 118441180983327),
  (7031250000055757, 134201183294494), (7158970488154485, 118441181198004),
  (7278486475835134, 126958227099360), (7409013524169257, 126958227101649),
  (7528529511861207, 118441181221994), (7656249999995128, 134201183338830),
  (7783970488123334, 118441181203235), (7903486475769077, 126958227028499),
  (8034013523994942, 126958226905476), (8153529511033429, 118441179914115),
  (8281249997270559, 134201180956407), (8408970480306172, 118441169405074),
  (8528486441459161, 126958185925752), (8659013429037654, 126958118413276),
  (8778529056938982, 118440461956724), (8906248502184242, 134199873527896),
  (9033966190853175, 118434696026439), (9153467617010309, 126935637326232),
  (9283961358254955, 126898721372319), (9403280454467148, 118047482961134),
  (9530430552872573, 133486364942314), (9656700653027379, 115172491333599),
  (9769045703782022, 116196867119400), (9886946892841597, 111954603928325), (9976242871376036, 59524738089378)]

/-- precomputed_ggq_rules_reduced1.cpp L1818-1903, entry 32 of `S_7_2_precomputed`. -/
def S_7_2_precomputed_row32 : List (Int × Int) := [
  (23037215635358, 57720958147276), (109627255426330, 108562040172921), (223955681181069, 112675749933964),
  (332896336458299, 111682415838641), (455340069941748, 129441323580426), (578637135062160, 114470286507766),
  (694340501086105, 123053305573157), (820879886535458, 123089102861801), (936760057354497, 114845765843820),
  (1060607513033463, 130133210693717), (1184456672059169, 114851357048945),
  (1300350614266517, 123110902703783), (1426922238585056, 123110968170426),
  (1542816503945531, 114852043059465), (1666666669313397, 130134478503182),
  (1790516837785766, 114852053250051), (1906411128247332, 123111007908343),
  (2032982811375447, 123111008027642), (2148877102425888, 114852054500154),
  (2272727272732096, 130134480813497), (2396577443043960, 114852054518724),
  (2512471734140143, 123111008100055), (2639043417375426, 123111008100273),
  (2754937708472681, 114852054521002), (2878787878787887, 130134480817707),
  (3002638049103105, 114852054521036), (3118532340200444, 123111008100405),
  (3245104023435921, 123111008100405), (3360998314533262, 114852054521040),
  (3484848484848485, 130134480817714), (3608698655163708, 114852054521040),
  (3724592946261049, 123111008100405), (3851164629496527, 123111008100405),
  (3967058920593868, 114852054521040), (4090909090909091, 130134480817715),
  (4214759261224314, 114852054521040), (4330653552321655, 123111008100405),
  (4457225235557133, 123111008100405), (4573119526654474, 114852054521040),
  (4696969696969697, 130134480817715), (4820819867284920, 114852054521040),
  (4936714158382262, 123111008100405), (5063285841617738, 123111008100405),
  (5179180132715080, 114852054521040), (5303030303030303, 130134480817715),
  (5426880473345527, 114852054521040), (5542774764442867, 123111008100405),
  (5669346447678345, 123111008100405), (5785240738775687, 114852054521040),
  (5909090909090909, 130134480817715), (6032941079406132, 114852054521040),
  (6148835370503474, 123111008100405), (6275407053738951, 123111008100405),
  (6391301344836292, 114852054521040), (6515151515151515, 130134480817714),
  (6639001685466739, 114852054521040), (6754895976564079, 123111008100405),
  (6881467659799557, 123111008100405), (6997361950896895, 114852054521036),
  (7121212121212113, 130134480817707), (7245062291527320, 114852054521002),
  (7360956582624575, 123111008100273), (7487528265859857, 123111008100055),
  (7603422556956039, 114852054518724), (7727272727267904, 130134480813497),
  (7851122897574112, 114852054500154), (7967017188624553, 123111008027642),
  (8093588871752669, 123111007908343), (8209483162214235, 114852053250051),
  (8333333330686603, 130134478503182), (8457183496054470, 114852043059465),
  (8573077761414944, 123110968170426), (8699649385733483, 123110902703783),
  (8815543327940831, 114851357048945), (8939392486966538, 130133210693717),
  (9063239942645503, 114845765843820), (9179120113464543, 123089102861801),
  (9305659498913896, 123053305573157), (9421362864937840, 114470286507766),
  (9544659930058252, 129441323580426), (9667103663541701, 111682415838641),
  (9776044318818931, 112675749933964), (9890372744573670, 108562040172921), (9976962784364642, 57720958147276)]

/-- precomputed_ggq_rules_reduced1.cpp L1904-1992, entry 33 of `S_7_2_precomputed`. -/
def S_7_2_precomputed_row33 : List (Int × Int) := [
  (22359650469613, 56023282907650), (106402924384379, 105369038991365), (217368749381626, 109361757288847),
  (323105267738938, 108397638902211), (441947714943461, 125634225828060), (561618395795626, 111103513375185),
  (673918721642396, 119434090703359), (796736360460886, 119468835130572), (909208290961718, 111467949201355),
  (1029413174414831, 126305763320373), (1149619711116252, 111473375959270),
  (1262105007964561, 119489993800731), (1384953937450202, 119490057341884),
  (1497439547947133, 111474041793010), (1617647061392415, 126306993841324),
  (1737854577850890, 111474051683873), (1850340212710646, 119490095911039),
  (1973189199276169, 119490096026829), (2085674834707479, 111474052897207),
  (2205882352945854, 126306996083685), (2326089871189716, 111474052915217),
  (2438575506665387, 119490096097058), (2561424493334845, 119490096097179),
  (2673910128811115, 111474052916486), (2794117647056839, 126306996086032),
  (2914325165300237, 111474052908847), (3026810800757689, 119490096067390),
  (3149659787383060, 119490096018102), (3262145422597221, 111474052392370),
  (3382352940082973, 126306995131531), (3502560456286097, 111474048182123),
  (3615046081129725, 119490079600354), (3737895043457860, 119490052552671),
  (3850380534790176, 111473764755729), (3970587635221063, 126306471332446),
  (4090794031842487, 111471454498937), (4203273832749476, 119481044279011),
  (4326109467534525, 119466224069369), (4438516095161242, 111316091329125),
  (4558494652958324, 126019695967550), (4678102243202241, 110102120304196),
  (4787560100908931, 114901016566576), (4904602827238576, 111504609056375), (5000000000000000, 83993779774994),
  (5095397172761424, 111504609056375), (5212439899091068, 114901016566576),
  (5321897756797760, 110102120304196), (5441505347041676, 126019695967550),
  (5561483904838757, 111316091329125), (5673890532465475, 119466224069369),
  (5796726167250524, 119481044279011), (5909205968157513, 111471454498937),
  (6029412364778937, 126306471332446), (6149619465209825, 111473764755729),
  (6262104956542139, 119490052552671), (6384953918870274, 119490079600354),
  (6497439543713903, 111474048182123), (6617647059917028, 126306995131531),
  (6737854577402779, 111474052392370), (6850340212616939, 119490096018102),
  (6973189199242310, 119490096067390), (7085674834699762, 111474052908847),
  (7205882352943160, 126306996086032), (7326089871188886, 111474052916486),
  (7438575506665155, 119490096097179), (7561424493334612, 119490096097058),
  (7673910128810284, 111474052915217), (7794117647054145, 126306996083685),
  (7914325165292522, 111474052897207), (8026810800723830, 119490096026829),
  (8149659787289355, 119490095911039), (8262145422149110, 111474051683873),
  (8382352938607585, 126306993841324), (8502560452052867, 111474041793010),
  (8615046062549798, 119490057341884), (8737894992035439, 119489993800731),
  (8850380288883748, 111473375959270), (8970586825585168, 126305763320373),
  (9090791709038283, 111467949201355), (9203263639539114, 119468835130572),
  (9326081278357605, 119434090703359), (9438381604204373, 111103513375185),
  (9558052285056540, 125634225828060), (9676894732261062, 108397638902211),
  (9782631250618373, 109361757288847), (9893597075615621, 105369038991365), (9977640349530388, 56023282907650)]

/-- precomputed_ggq_rules_reduced1.cpp L1993-2083, entry 34 of `S_7_2_precomputed`. -/
def S_7_2_precomputed_row34 : List (Int × Int) := [
  (21720803313338, 54422617681717), (103362840830539, 102358495020183), (211158213685008, 106237135652023),
  (313873688660682, 105300563505005), (429320637373648, 122044676518687), (545572155915751, 107929127278751),
  (654663901024042, 116021688111834), (773972464447718, 116055439841127), (883230911219954, 108283150652745),
  (1000001369431551, 122697027225505), (1116773433655788, 108288422360434),
  (1226044864879859, 116075993977853), (1345383824951624, 116076055703545),
  (1454655560862929, 108289069170353), (1571428573924060, 122698222588715),
  (1688201589912293, 108289078778620), (1797473349490341, 116076093170724),
  (1916812365011135, 116076093283205), (2026084125144409, 108289079957288),
  (2142857142861690, 122698224767011), (2259630160584306, 108289079974797),
  (2368901920760706, 116076093351481), (2488240936382544, 116076093351686),
  (2597512696559957, 108289079976945), (2714285714285722, 122698224770981),
  (2831058732011498, 108289079976977), (2940330492188989, 116076093351810),
  (3059669507811011, 116076093351811), (3168941267988504, 108289079976981),
  (3285714285714286, 122698224770988), (3402487303440067, 108289079976981),
  (3511759063617561, 116076093351811), (3631098079239582, 116076093351811),
  (3740369839417075, 108289079976981), (3857142857142857, 122698224770988),
  (3973915874868639, 108289079976981), (4083187635046132, 116076093351811),
  (4202526650668154, 116076093351811), (4311798410845647, 108289079976981),
  (4428571428571428, 122698224770988), (4545344446297210, 108289079976981),
  (4654616206474703, 116076093351811), (4773955222096725, 116076093351811),
  (4883226982274218, 108289079976981), (5000000000000000, 122698224770988),
  (5116773017725782, 108289079976981), (5226044777903275, 116076093351811),
  (5345383793525297, 116076093351811), (5454655553702790, 108289079976981),
  (5571428571428572, 122698224770988), (5688201589154352, 108289079976981),
  (5797473349331846, 116076093351811), (5916812364953867, 116076093351811),
  (6026084125131361, 108289079976981), (6142857142857142, 122698224770988),
  (6259630160582924, 108289079976981), (6368901920760418, 116076093351811),
  (6488240936382439, 116076093351811), (6597512696559933, 108289079976981),
  (6714285714285714, 122698224770988), (6831058732011496, 108289079976981),
  (6940330492188989, 116076093351811), (7059669507811011, 116076093351810),
  (7168941267988501, 108289079976977), (7285714285714278, 122698224770981),
  (7402487303440044, 108289079976945), (7511759063617456, 116076093351686),
  (7631098079239294, 116076093351481), (7740369839415694, 108289079974797),
  (7857142857138310, 122698224767011), (7973915874855591, 108289079957288),
  (8083187634988864, 116076093283205), (8202526650509658, 116076093170724),
  (8311798410087706, 108289078778620), (8428571426075939, 122698222588715),
  (8545344439137071, 108289069170353), (8654616175048375, 116076055703545),
  (8773955135120141, 116075993977853), (8883226566344211, 108288422360434),
  (8999998630568450, 122697027225505), (9116769088780046, 108283150652745),
  (9226027535552282, 116055439841127), (9345336098975958, 116021688111834),
  (9454427844084248, 107929127278751), (9570679362626352, 122044676518687),
  (9686126311339318, 105300563505005), (9788841786314991, 106237135652023),
  (9896637159169460, 102358495020183), (9978279196686662, 54422617681717)]

/-- precomputed_ggq_rules_reduced1.cpp L2084-2177, entry 35 of `S_7_2_precomputed`. -/
def S_7_2_precomputed_row35 : List (Int × Int) := [
  (21117447665745, 52910878301670), (100491650807469, 99515203491844), (205292707749314, 103286104106133),
  (305154975086774, 102375547852088), (417395064113269, 118654546615390), (530417373806980, 104931095965452),
  (636478792662263, 112798863442061), (752473229324170, 112831677623318), (858696719241622, 105275285356835),
  (972223553614008, 119288776469241), (1085751949387572, 105280410628199), (1191988063077641, 112851660811801),
  (1308012052036301, 112851720822891), (1414248461950070, 105281039471177),
  (1527777780203947, 119289938627917), (1641307101303618, 105281048812547),
  (1747543534226721, 112851757249315), (1863567577094159, 112851757358672),
  (1969804010557064, 105281049958475), (2083333333337754, 119289940745705),
  (2196862656123630, 105281049975496), (2303099089628463, 112851757425048),
  (2419123132594134, 112851757425244), (2525359566099930, 105281049977542),
  (2638888888888806, 119289940749486), (2752418211677586, 105281049977225),
  (2858654645182602, 112851757424008), (2974678688146445, 112851757421774),
  (3080915121640434, 105281049953816), (3194444444394874, 119289940706224),
  (3307973767091172, 105281049762961), (3414210200115052, 112851756677538),
  (3530234241977472, 112851755451431), (3636470668949112, 105281036914879),
  (3749999972797911, 119289916961692), (3863529244739919, 105280932180263),
  (3969765413733187, 112851347042621), (4085788851184899, 112850674246255),
  (4192021699117040, 105273881961379), (4305540628879632, 119276888177936),
  (4419042083556090, 105216526920608), (4525133734691263, 112627357884042),
  (4640829359439919, 112272699764524), (4745164623268788, 101482357058644),
  (4853303612487782, 112806176500938), (4957741155639994, 90416227747693), (5042258844360006, 90416227747693),
  (5146696387512217, 112806176500938), (5254835376731212, 101482357058644),
  (5359170640560081, 112272699764524), (5474866265308737, 112627357884042),
  (5580957916443908, 105216526920608), (5694459371120367, 119276888177936),
  (5807978300882959, 105273881961379), (5914211148815101, 112850674246255),
  (6030234586266812, 112851347042621), (6136470755260081, 105280932180263),
  (6250000027202089, 119289916961692), (6363529331050888, 105281036914879),
  (6469765758022527, 112851755451431), (6585789799884947, 112851756677538),
  (6692026232908828, 105281049762961), (6805555555605124, 119289940706224),
  (6919084878359565, 105281049953816), (7025321311853554, 112851757421774),
  (7141345354817397, 112851757424008), (7247581788322413, 105281049977225),
  (7361111111111193, 119289940749486), (7474640433900069, 105281049977542),
  (7580876867405866, 112851757425244), (7696900910371537, 112851757425048),
  (7803137343876370, 105281049975496), (7916666666662245, 119289940745705),
  (8030195989442935, 105281049958475), (8136432422905839, 112851757358672),
  (8252456465773279, 112851757249315), (8358692898696382, 105281048812547),
  (8472222219796052, 119289938627917), (8585751538049929, 105281039471177),
  (8691987947963699, 112851720822891), (8808011936922359, 112851660811801),
  (8914248050612428, 105280410628199), (9027776446385992, 119288776469241),
  (9141303280758377, 105275285356835), (9247526770675830, 112831677623318),
  (9363521207337737, 112798863442061), (9469582626193018, 104931095965452),
  (9582604935886732, 118654546615390), (9694845024913226, 102375547852088),
  (9794707292250686, 103286104106133), (9899508349192531, 99515203491844), (9978882552334255, 52910878301670)]

/-- precomputed_ggq_rules_reduced1.cpp L2178-2273, entry 36 of `S_7_2_precomputed`. -/
def S_7_2_precomputed_row36 : List (Int × Int) := [
  (20546705836941, 51480854563787), (97775660245105, 96825603397470), (199744256188521, 100494587778941),
  (296907543327672, 99608641153383), (406114116434532, 115447666977136), (516081769109494, 102095120398819),
  (619276663130850, 109750245511194), (732136115018111, 109782172822688), (835488699802660, 102430007374218),
  (945947241354170, 116064755483586), (1056407302106827, 102434994124735), (1159772169480948, 109801615924996),
  (1272660374954239, 109801674314164), (1376025530546014, 102435605971956),
  (1486486488847084, 116065886232568), (1596947449917034, 102435615060857),
  (1700312627896269, 109801709756090), (1813200885821344, 109801709862492),
  (1916566064325792, 102435616175813), (2027027027031329, 116065888293119),
  (2137487989741911, 102435616192376), (2240853168287155, 109801709927077),
  (2353741426307812, 109801709927270), (2457106604854013, 102435616194407),
  (2567567567567575, 116065888296874), (2678028530281147, 102435616194438),
  (2781393708827423, 109801709927388), (2894281966848254, 109801709927388),
  (2997647145394531, 102435616194441), (3108108108108109, 116065888296881),
  (3218569070821686, 102435616194441), (3321934249367963, 109801709927389),
  (3434822507388794, 109801709927389), (3538187685935071, 102435616194441),
  (3648648648648649, 116065888296881), (3759109611362226, 102435616194441),
  (3862474789908503, 109801709927389), (3975363047929335, 109801709927389),
  (4078728226475612, 102435616194441), (4189189189189190, 116065888296881),
  (4299650151902767, 102435616194441), (4403015330449044, 109801709927389),
  (4515903588469876, 109801709927389), (4619268767016153, 102435616194441),
  (4729729729729730, 116065888296881), (4840190692443307, 102435616194441),
  (4943555870989584, 109801709927389), (5056444129010416, 109801709927389),
  (5159809307556693, 102435616194441), (5270270270270271, 116065888296881),
  (5380731232983847, 102435616194441), (5484096411530125, 109801709927389),
  (5596984669550956, 109801709927389), (5700349848097234, 102435616194441),
  (5810810810810811, 116065888296881), (5921271773524388, 102435616194441),
  (6024636952070666, 109801709927389), (6137525210091497, 109801709927389),
  (6240890388637774, 102435616194441), (6351351351351352, 116065888296881),
  (6461812314064929, 102435616194441), (6565177492611206, 109801709927389),
  (6678065750632037, 109801709927389), (6781430929178315, 102435616194441),
  (6891891891891893, 116065888296881), (7002352854605469, 102435616194441),
  (7105718033151747, 109801709927388), (7218606291172578, 109801709927388),
  (7321971469718853, 102435616194438), (7432432432432425, 116065888296874),
  (7542893395145988, 102435616194407), (7646258573692188, 109801709927270),
  (7759146831712846, 109801709927077), (7862512010258089, 102435616192376),
  (7972972972968672, 116065888293119), (8083433935674208, 102435616175813),
  (8186799114178656, 109801709862492), (8299687372103732, 109801709756090),
  (8403052550082967, 102435615060857), (8513513511152916, 116065886232568),
  (8623974469453987, 102435605971956), (8727339625045760, 109801674314164),
  (8840227830519053, 109801615924996), (8943592697893173, 102434994124735),
  (9054052758645831, 116064755483586), (9164511300197341, 102430007374218),
  (9267863884981890, 109782172822688), (9380723336869151, 109750245511194),
  (9483918230890506, 102095120398819), (9593885883565469, 115447666977136), (9703092456672329, 99608641153383),
  (9800255743811479, 100494587778941), (9902224339754895, 96825603397470), (9979453294163060, 51480854563787)]

/-- precomputed_ggq_rules_reduced1.cpp L2274-2372, entry 37 of `S_7_2_precomputed`. -/
def S_7_2_precomputed_row37 : List (Int × Int) := [
  (20006003051759, 50126095233161), (95202616554444, 94277561202800), (194487828394087, 97849993363705),
  (289094186924313, 96987361123031), (395426902844149, 112409570477738), (502500669922402, 99408406704113),
  (602979908837933, 106862081155637), (712869375149214, 106893168274722), (813502155071011, 99734480864370),
  (921053892897481, 113010419812965), (1028607109946120, 99739336384610), (1129251849231449, 106912099716443),
  (1239169312455443, 106912156569054), (1339814332373750, 99739932130588), (1447368423351108, 113011520805395),
  (1554922517024481, 99739940980308), (1655567558741104, 106912191078298), (1765485073036572, 106912191181900),
  (1866130115264587, 99739942065923), (1973684210530504, 113011522811721), (2081238305801334, 99739942082050),
  (2181883348069072, 106912191244785), (2291800862457606, 106912191244974), (2392445904726275, 99739942084027),
  (2500000000000004, 113011522815374), (2607554095273739, 99739942084044), (2708199137542449, 106912191245039),
  (2818116651931081, 106912191244959), (2918761694199397, 99739942083205), (3026315789471901, 113011522813825),
  (3133869884742315, 99739942076341), (3234514926993721, 106912191218191), (3344432441342738, 106912191174091),
  (3445077483376460, 99739941614226), (3552631577968975, 113011521959791), (3660185671413876, 99739937847163),
  (3760830704168701, 106912176484527), (3870748196778085, 106912152283969), (3971393110075420, 99739684255126),
  (4078946831513582, 113011053297452), (4186499923227489, 99737617183260), (4287139745091636, 106904092249641),
  (4397045313057206, 106890832062067), (4497619664091638, 99598608031322), (4604968900015342, 112754464813071),
  (4711986217602004, 98512423430070), (4809922195550096, 102806172717463), (4914644634897672, 99767281787283),
  (5000000000000000, 75152329272363), (5085355365102326, 99767281787283), (5190077804449903, 102806172717463),
  (5288013782397996, 98512423430070), (5395031099984657, 112754464813071), (5502380335908361, 99598608031322),
  (5602954686942794, 106890832062067), (5712860254908363, 106904092249641), (5813500076772511, 99737617183260),
  (5921053168486418, 113011053297452), (6028606889924579, 99739684255126), (6129251803221915, 106912152283969),
  (6239169295831298, 106912176484527), (6339814328586123, 99739937847163), (6447368422031025, 113011521959791),
  (6554922516623539, 99739941614226), (6655567558657262, 106912191174091), (6765485073006278, 106912191218191),
  (6866130115257685, 99739942076341), (6973684210528098, 113011522813825), (7081238305800603, 99739942083205),
  (7181883348068918, 106912191244959), (7291800862457549, 106912191245039), (7392445904726260, 99739942084044),
  (7499999999999994, 113011522815374), (7607554095273725, 99739942084027), (7708199137542393, 106912191244974),
  (7818116651930929, 106912191244785), (7918761694198665, 99739942082050), (8026315789469495, 113011522811721),
  (8133869884735413, 99739942065923), (8234514926963428, 106912191181900), (8344432441258895, 106912191078298),
  (8445077482975518, 99739940980308), (8552631576648891, 113011520805395), (8660185667626250, 99739932130588),
  (8760830687544555, 106912156569054), (8870748150768550, 106912099716443), (8971392890053879, 99739336384610),
  (9078946107102519, 113010419812965), (9186497844928989, 99734480864370), (9287130624850786, 106893168274722),
  (9397020091162067, 106862081155637), (9497499330077597, 99408406704113), (9604573097155851, 112409570477738),
  (9710905813075688, 96987361123031), (9805512171605912, 97849993363705), (9904797383445555, 94277561202800),
  (9979993996948242, 50126095233161)]

/-- precomputed_ggq_rules_reduced1.cpp L2373-2473, entry 38 of `S_7_2_precomputed`. -/
def S_7_2_precomputed_row38 : List (Int × Int) := [
  (19493028614534, 48840810740003), (92761523822279, 91860187838626), (189500960999366, 95341019174892),
  (281681515464715, 94500505709619), (385287751489171, 109527273798822), (489616037360289, 96859473198879),
  (587518885534396, 104122027792672), (694590673222311, 104152317806139), (792643125453805, 97177186483232),
  (897437126412930, 110112716740838), (1002232568665451, 97181917502953), (1100296673610130, 104170763826278),
  (1207395740341201, 104170819221130), (1305460118723141, 97182497973394), (1410256412495951, 110113789502693),
  (1515052708895648, 97182506596197), (1613117108516973, 104170852845521), (1720216225009993, 104170852946466),
  (1818280625129598, 97182507653977), (1923076923081004, 110113791457574), (2027873221037197, 97182507669690),
  (2125937621195506, 104170853007739), (2233036737779206, 104170853007923), (2331101137938422, 97182507671617),
  (2435897435897443, 110113791461137), (2540693733856473, 97182507671646), (2638758134015760, 104170853008035),
  (2745857250599625, 104170853008035), (2843921650758914, 97182507671649), (2948717948717949, 110113791461143),
  (3053514246676983, 97182507671649), (3151578646836272, 104170853008035), (3258677763420138, 104170853008035),
  (3356742163579426, 97182507671649), (3461538461538461, 110113791461143), (3566334759497496, 97182507671649),
  (3664399159656785, 104170853008035), (3771498276240651, 104170853008035), (3869562676399939, 97182507671649),
  (3974358974358974, 110113791461143), (4079155272318009, 97182507671649), (4177219672477298, 104170853008035),
  (4284318789061163, 104170853008035), (4382383189220452, 97182507671649), (4487179487179487, 110113791461143),
  (4591975785138522, 97182507671649), (4690040185297811, 104170853008035), (4797139301881676, 104170853008035),
  (4895203702040965, 97182507671649), (5000000000000000, 110113791461143), (5104796297959034, 97182507671649),
  (5202860698118323, 104170853008035), (5309959814702189, 104170853008035), (5408024214861478, 97182507671649),
  (5512820512820512, 110113791461143), (5617616810779548, 97182507671649), (5715681210938837, 104170853008035),
  (5822780327522702, 104170853008035), (5920844727681991, 97182507671649), (6025641025641025, 110113791461143),
  (6130437323600060, 97182507671649), (6228501723759349, 104170853008035), (6335600840343215, 104170853008035),
  (6433665240502503, 97182507671649), (6538461538461539, 110113791461143), (6643257836420573, 97182507671649),
  (6741322236579862, 104170853008035), (6848421353163727, 104170853008035), (6946485753323016, 97182507671649),
  (7051282051282051, 110113791461143), (7156078349241086, 97182507671649), (7254142749400375, 104170853008035),
  (7361241865984240, 104170853008035), (7459306266143526, 97182507671646), (7564102564102556, 110113791461137),
  (7668898862061577, 97182507671617), (7766963262220794, 104170853007923), (7874062378804494, 104170853007739),
  (7972126778962801, 97182507669690), (8076923076918996, 110113791457574), (8181719374870402, 97182507653977),
  (8279783774990006, 104170852946466), (8386882891483026, 104170852845521), (8484947291104351, 97182506596197),
  (8589743587504048, 110113789502693), (8694539881276859, 97182497973394), (8792604259658797, 104170819221130),
  (8899703326389869, 104170763826278), (8997767431334549, 97181917502953), (9102562873587070, 110112716740838),
  (9207356874546195, 97177186483232), (9305409326777689, 104152317806139), (9412481114465604, 104122027792672),
  (9510383962639710, 96859473198879), (9614712248510828, 109527273798822), (9718318484535285, 94500505709619),
  (9810499039000633, 95341019174892), (9907238476177720, 91860187838626), (9980506971385467, 48840810740003)]

/-- precomputed_ggq_rules_reduced1.cpp L2474-2577, entry 39 of `S_7_2_precomputed`. -/
def S_7_2_precomputed_row39 : List (Int × Int) := [
  (19005702899171, 47619790471503), (90442485726722, 89563683142660), (184763436974382, 92957493695520),
  (274639477578097, 92137993066879), (375655557701942, 106789091953851), (477375636426282, 94437986368907),
  (572830913396036, 101518977097855), (677225906391753, 101548509860986), (772827047317460, 94747756821152),
  (875001198252607, 107359898822317), (977176754448815, 94752369565380), (1072789256769877, 101566494730621),
  (1177210846832671, 101566548740602), (1272823615755063, 94752935524059), (1375000002183553, 107360944765125),
  (1477176391173257, 94752943931292), (1572789180804049, 101566581524383), (1677210819384743, 101566581622805),
  (1772823609501358, 94752944962627), (1875000000003979, 107360946671135), (1977176390511267, 94752944977947),
  (2072789180665618, 101566581682546), (2177210819334726, 101566581682725), (2272823609489962, 94752944979827),
  (2375000000000007, 107360946674608), (2477176390510061, 94752944979854), (2572789180665364, 101566581682832),
  (2677210819334629, 101566581682828), (2772823609489917, 94752944979819), (2874999999999919, 107360946674543),
  (2977176390509826, 94752944979506), (3072789180664341, 101566581681608), (3177210819331802, 101566581679597),
  (3272823609476391, 94752944958435), (3374999999955388, 107360946635601), (3477176390382055, 94752944786665),
  (3572789180103547, 101566581009784), (3677210817779726, 101566579906288), (3772823602054201, 94752933223391),
  (3874999975518120, 107360925265522), (3977176320265927, 94752838962237), (4072788872359869, 101566212338359),
  (4177209966066410, 101565606821630), (4272819529205337, 94746493765241), (4374986565991670, 107349199360142),
  (4477137875200482, 94694874228547), (4572620361222137, 101364622095638), (4676746423495927, 101045429788072),
  (4770648160941909, 91334121352780), (4867973251239004, 101525558850844), (4961967040075995, 81374604972924),
  (5038032959924006, 81374604972924), (5132026748760996, 101525558850844), (5229351839058091, 91334121352780),
  (5323253576504073, 101045429788072), (5427379638777863, 101364622095638), (5522862124799518, 94694874228547),
  (5625013434008331, 107349199360142), (5727180470794664, 94746493765241), (5822790033933590, 101565606821630),
  (5927211127640132, 101566212338359), (6022823679734073, 94752838962237), (6125000024481881, 107360925265522),
  (6227176397945799, 94752933223391), (6322789182220275, 101566579906288), (6427210819896453, 101566581009784),
  (6522823609617946, 94752944786665), (6625000000044613, 107360946635601), (6727176390523609, 94752944958435),
  (6822789180668200, 101566581679597), (6927210819335659, 101566581681608), (7022823609490175, 94752944979506),
  (7125000000000082, 107360946674543), (7227176390510084, 94752944979819), (7322789180665370, 101566581682828),
  (7427210819334636, 101566581682832), (7522823609489939, 94752944979854), (7624999999999993, 107360946674608),
  (7727176390510039, 94752944979827), (7822789180665275, 101566581682725), (7927210819334383, 101566581682546),
  (8022823609488733, 94752944977947), (8124999999996021, 107360946671135), (8227176390498642, 94752944962627),
  (8322789180615257, 101566581622805), (8427210819195952, 101566581524383), (8522823608826743, 94752943931292),
  (8624999997816447, 107360944765125), (8727176384244939, 94752935524059), (8822789153167329, 101566548740602),
  (8927210743230124, 101566494730621), (9022823245551186, 94752369565380), (9124998801747394, 107359898822317),
  (9227172952682541, 94747756821152), (9322774093608248, 101548509860986), (9427169086603965, 101518977097855),
  (9522624363573717, 94437986368907), (9624344442298058, 106789091953851), (9725360522421904, 92137993066879),
  (9815236563025618, 92957493695520), (9909557514273278, 89563683142660), (9980994297100830, 47619790471503)]

/-- precomputed_ggq_rules_reduced1.cpp L2578-2683, entry 40 of `S_7_2_precomputed`. -/
def S_7_2_precomputed_row40 : List (Int × Int) := [
  (18542149169923, 46458332167320), (88236571440704, 87379203066010), (180257011682324, 90690237751727),
  (267940953734729, 89890724943297), (366493227026285, 104184479954977), (465732328220763, 92134620847714),
  (558859427703450, 99042904485712), (660708201357808, 99071716937547), (753977607138985, 92436835923075),
  (853659705612299, 104741364704699), (953343175072014, 92441336161346), (1046623665141343, 99089263151825),
  (1148498387153826, 99089315844490), (1241779137322012, 92441888316155), (1341463416764442, 104742385136708),
  (1441147698705616, 92441896518334), (1534428469077121, 99089347828667), (1636303238424140, 99089347924688),
  (1729584009269617, 92441897524514), (1829268292686809, 104742386996229), (1928952576108554, 92441897539461),
  (2022233346990847, 99089347982971), (2124108116424123, 99089347983146), (2217388887307280, 92441897541294),
  (2317073170731714, 104742386999618), (2416757454156157, 92441897541322), (2510038225039382, 99089347983253),
  (2611912994472815, 99089347983253), (2705193765356040, 92441897541325), (2804878048780488, 104742386999624),
  (2904562332204936, 92441897541325), (2997843103088161, 99089347983253), (3099717872521595, 99089347983253),
  (3192998643404821, 92441897541325), (3292682926829268, 104742386999624), (3392367210253716, 92441897541325),
  (3485647981136942, 99089347983253), (3587522750570375, 99089347983253), (3680803521453601, 92441897541325),
  (3780487804878049, 104742386999624), (3880172088302496, 92441897541325), (3973452859185723, 99089347983253),
  (4075327628619156, 99089347983253), (4168608399502381, 92441897541325), (4268292682926829, 104742386999624),
  (4367976966351277, 92441897541325), (4461257737234503, 99089347983253), (4563132506667936, 99089347983253),
  (4656413277551162, 92441897541325), (4756097560975610, 104742386999624), (4855781844400058, 92441897541325),
  (4949062615283283, 99089347983253), (5050937384716717, 99089347983253), (5144218155599942, 92441897541325),
  (5243902439024390, 104742386999624), (5343586722448839, 92441897541325), (5436867493332064, 99089347983253),
  (5538742262765497, 99089347983253), (5632023033648723, 92441897541325), (5731707317073171, 104742386999624),
  (5831391600497619, 92441897541325), (5924672371380845, 99089347983253), (6026547140814278, 99089347983253),
  (6119827911697504, 92441897541325), (6219512195121951, 104742386999624), (6319196478546399, 92441897541325),
  (6412477249429626, 99089347983253), (6514352018863058, 99089347983253), (6607632789746284, 92441897541325),
  (6707317073170732, 104742386999624), (6807001356595179, 92441897541325), (6900282127478405, 99089347983253),
  (7002156896911839, 99089347983253), (7095437667795065, 92441897541325), (7195121951219512, 104742386999624),
  (7294806234643960, 92441897541325), (7388087005527186, 99089347983253), (7489961774960620, 99089347983253),
  (7583242545843842, 92441897541322), (7682926829268286, 104742386999618), (7782611112692721, 92441897541294),
  (7875891883575878, 99089347983146), (7977766653009154, 99089347982971), (8071047423891446, 92441897539461),
  (8170731707313191, 104742386996229), (8270415990730382, 92441897524514), (8363696761575861, 99089347924688),
  (8465571530922879, 99089347828667), (8558852301294383, 92441896518334), (8658536583235559, 104742385136708),
  (8758220862677989, 92441888316155), (8851501612846174, 99089315844490), (8953376334858657, 99089263151825),
  (9046656824927987, 92441336161346), (9146340294387701, 104741364704699), (9246022392861015, 92436835923075),
  (9339291798642193, 99071716937547), (9441140572296550, 99042904485712), (9534267671779236, 92134620847714),
  (9633506772973716, 104184479954977), (9732059046265272, 89890724943297), (9819742988317676, 90690237751727),
  (9911763428559296, 87379203066010), (9981457850830079, 46458332167320)]

/-- precomputed_ggq_rules_reduced1.cpp L2684-2792, entry 41 of `S_7_2_precomputed`. -/
def S_7_2_precomputed_row41 : List (Int × Int) := [
  (18100669427782, 45352181401431), (86135700692116, 85298745850152), (175965178070840, 88530946376686),
  (261561407217235, 87750469587504), (357767197811373, 101703897098906), (454643463263126, 89940939398959),
  (545553250853368, 96684740093195), (644977053706431, 96712866534272), (736025759349962, 90235958877287),
  (833334474526292, 102247522687921), (930644528046490, 90240351967028), (1021704054066549, 96729994981544),
  (1121153187459687, 96730046419621), (1212212967385774, 90240890975294), (1309523811603383, 102248518823929),
  (1406834658260245, 90240898982183), (1497894457908618, 96730077642270), (1597343637509279, 96730077736005),
  (1688403437620341, 90240899964407), (1785714285718075, 102248520639176), (1883025133820254, 90240899978998),
  (1974084933967255, 96730077792901), (2073534113652120, 96730077793072), (2164593913799964, 90240899980787),
  (2261904761904769, 102248520642484), (2359215610009582, 90240899980814), (2450275410157491, 96730077793175),
  (2549724589842509, 96730077793175), (2640784389990419, 90240899980816), (2738095238095235, 102248520642487),
  (2835406086200047, 90240899980805), (2926465886347930, 96730077793131), (3025915066032883, 96730077793059),
  (3116974866180406, 90240899980043), (3214285714284101, 102248520641079), (3311596562385904, 90240899973832),
  (3402656362518129, 96730077768840), (3502105542167239, 96730077728940), (3593165342102512, 90240899555728),
  (3690476189590978, 102248519868383), (3787787036041126, 90240896147433), (3878846827581206, 96730064438381),
  (3978295987561125, 96730042542639), (4069355671020619, 90240666707019), (4166666180893241, 102248095840552),
  (4263976121015347, 90238796499140), (4355031197940052, 96722750130628), (4454469568956520, 96710752818060),
  (4545465410368625, 90113026314054), (4642590909537690, 102015944354684), (4739416101639909, 89130287865301),
  (4828024843592944, 93015108649133), (4922773717288370, 90265635902780), (5000000000000000, 67994964579757),
  (5077226282711629, 90265635902780), (5171975156407055, 93015108649133), (5260583898360091, 89130287865301),
  (5357409090462308, 102015944354684), (5454534589631375, 90113026314054), (5545530431043479, 96710752818060),
  (5644968802059948, 96722750130628), (5736023878984653, 90238796499140), (5833333819106759, 102248095840552),
  (5930644328979381, 90240666707019), (6021704012438875, 96730042542639), (6121153172418794, 96730064438381),
  (6212212963958873, 90240896147433), (6309523810409022, 102248519868383), (6406834657897488, 90240899555728),
  (6497894457832760, 96730077728940), (6597343637481871, 96730077768840), (6688403437614096, 90240899973832),
  (6785714285715898, 102248520641079), (6883025133819594, 90240899980043), (6974084933967116, 96730077793059),
  (7073534113652070, 96730077793131), (7164593913799951, 90240899980805), (7261904761904764, 102248520642487),
  (7359215610009581, 90240899980816), (7450275410157491, 96730077793175), (7549724589842508, 96730077793175),
  (7640784389990417, 90240899980814), (7738095238095231, 102248520642484), (7835406086200036, 90240899980787),
  (7926465886347881, 96730077793072), (8025915066032745, 96730077792901), (8116974866179745, 90240899978998),
  (8214285714281925, 102248520639176), (8311596562379658, 90240899964407), (8402656362490720, 96730077736005),
  (8502105542091382, 96730077642270), (8593165341739755, 90240898982183), (8690476188396615, 102248518823929),
  (8787787032614226, 90240890975294), (8878846812540312, 96730046419621), (8978295945933450, 96729994981544),
  (9069355471953510, 90240351967028), (9166665525473707, 102247522687921), (9263974240650038, 90235958877287),
  (9355022946293569, 96712866534272), (9454446749146632, 96684740093195), (9545356536736873, 89940939398959),
  (9642232802188626, 101703897098906), (9738438592782764, 87750469587504), (9824034821929160, 88530946376686),
  (9913864299307883, 85298745850152), (9981899330572218, 45352181401431)]

/-- precomputed_ggq_rules_reduced1.cpp L2793-2903, entry 42 of `S_7_2_precomputed`. -/
def S_7_2_precomputed_row42 : List (Int × Int) := [
  (17679723627136, 44297479508375), (84132544862067, 83315054086195), (171872964627332, 86472087158623),
  (255478583793579, 85709760992446), (349447030420411, 99338690189629), (444070359466309, 87849289645495),
  (532865965949801, 94436257765446), (629977587341166, 94463730103243), (718908881225544, 88137448205722),
  (813954603025681, 99869673323085), (909001632045409, 88141739130586), (997943494669653, 94480460214531),
  (1095079857518764, 94480510456374), (1184021968144244, 88142265603776), (1279069769473072, 99870646293140),
  (1374117573184425, 88142273424458), (1463059703073533, 94480540952915), (1560196111055575, 94480541044470),
  (1649138241396612, 88142274383839), (1744186046515329, 99870648066172), (1839233851638388, 88142274398091),
  (1928175982014529, 94480541100043), (2025312390078815, 94480541100209), (2114254520455778, 88142274399839),
  (2209302325581402, 99870648069403), (2304350130707034, 88142274399865), (2393292261084061, 94480541100311),
  (2490428669148498, 94480541100311), (2579370799525527, 88142274399868), (2674418604651163, 99870648069409),
  (2769466409776799, 88142274399868), (2858408540153828, 94480541100311), (2955544948218264, 94480541100311),
  (3044487078595294, 88142274399868), (3139534883720930, 99870648069409), (3234582688846567, 88142274399868),
  (3323524819223596, 94480541100311), (3420661227288032, 94480541100311), (3509603357665061, 88142274399868),
  (3604651162790697, 99870648069409), (3699698967916334, 88142274399868), (3788641098293363, 94480541100311),
  (3885777506357799, 94480541100311), (3974719636734829, 88142274399868), (4069767441860465, 99870648069409),
  (4164815246986102, 88142274399868), (4253757377363130, 94480541100311), (4350893785427567, 94480541100311),
  (4439835915804596, 88142274399868), (4534883720930232, 99870648069409), (4629931526055869, 88142274399868),
  (4718873656432898, 94480541100311), (4816010064497334, 94480541100311), (4904952194874364, 88142274399868),
  (5000000000000000, 99870648069409), (5095047805125636, 88142274399868), (5183989935502665, 94480541100311),
  (5281126343567102, 94480541100311), (5370068473944131, 88142274399868), (5465116279069767, 99870648069409),
  (5560164084195404, 88142274399868), (5649106214572432, 94480541100311), (5746242622636869, 94480541100311),
  (5835184753013899, 88142274399868), (5930232558139534, 99870648069409), (6025280363265171, 88142274399868),
  (6114222493642201, 94480541100311), (6211358901706636, 94480541100311), (6300301032083666, 88142274399868),
  (6395348837209303, 99870648069409), (6490396642334939, 88142274399868), (6579338772711968, 94480541100311),
  (6676475180776404, 94480541100311), (6765417311153433, 88142274399868), (6860465116279070, 99870648069409),
  (6955512921404706, 88142274399868), (7044455051781735, 94480541100311), (7141591459846172, 94480541100311),
  (7230533590223200, 88142274399868), (7325581395348837, 99870648069409), (7420629200474473, 88142274399868),
  (7509571330851502, 94480541100311), (7606707738915939, 94480541100311), (7695649869292965, 88142274399865),
  (7790697674418597, 99870648069403), (7885745479544222, 88142274399839), (7974687609921186, 94480541100209),
  (8071824017985472, 94480541100043), (8160766148361611, 88142274398091), (8255813953484671, 99870648066172),
  (8350861758603387, 88142274383839), (8439803888944424, 94480541044470), (8536940296926465, 94480540952915),
  (8625882426815574, 88142273424458), (8720930230526928, 99870646293140), (8815978031855757, 88142265603776),
  (8904920142481235, 94480510456374), (9002056505330347, 94480460214531), (9090998367954591, 88141739130586),
  (9186045396974319, 99869673323085), (9281091118774456, 88137448205722), (9370022412658835, 94463730103243),
  (9467134034050199, 94436257765446), (9555929640533690, 87849289645495), (9650552969579589, 99338690189629),
  (9744521416206422, 85709760992446), (9828127035372668, 86472087158623), (9915867455137932, 83315054086195),
  (9982320276372865, 44297479508375)]

/-- precomputed_ggq_rules_reduced1.cpp L2904-3017, entry 43 of `S_7_2_precomputed`. -/
def S_7_2_precomputed_row43 : List (Int × Int) := [
  (17277911726519, 43290718610457), (82220441569747, 81421530129691), (167966760885802, 84506812450473),
  (249672252343725, 83761811878981), (341505052456311, 97080992685319), (433977851296620, 85852714880825),
  (520755375814578, 92289979179868), (615659914901594, 92316827146351), (702570043015873, 86134324382865),
  (795455634775097, 97599908020288), (888342504044377, 86138517786709), (975262960699888, 92333177027837),
  (1070191678938792, 92333226127820), (1157112377959148, 86139032294599), (1250000001985048, 97600858877387),
  (1342887628339324, 86139039937539), (1429808346185499, 92333255931258), (1524737108531585, 92333256020732),
  (1611657826819416, 86139040875116), (1704545454549072, 97600860610123), (1797433082282970, 86139040889043),
  (1884353800605107, 92333256075042), (1979282563031569, 92333256075205), (2066203281354511, 86139040890752),
  (2159090909090915, 97600860613280), (2251978536827328, 86139040890777), (2338899255150333, 92333256075304),
  (2433828017576941, 92333256075304), (2520748735899946, 86139040890780), (2613636363636364, 97600860613286),
  (2706523991372781, 86139040890780), (2793444709695785, 92333256075302), (2888373472122391, 92333256075299),
  (2975294190445379, 86139040890745), (3068181818181744, 97600860613221), (3161069445918024, 86139040890460),
  (3247990164240310, 92333256074189), (3342918926665274, 92333256072361), (3429839644978537, 86139040871304),
  (3522727272686716, 97600860577819), (3615614900347323, 86139040715150), (3702535618275952, 92333255463440),
  (3797464379799750, 92333254460262), (3884385092776547, 86139030203083), (3977272705016472, 97600841150475),
  (4070160291150843, 86138944511125), (4157080793054426, 92332920307599), (4252009060060372, 92332369837845),
  (4338926844732124, 86133176150219), (4431805969083336, 97590181236493), (4524670795636802, 86086249298679),
  (4611473055656489, 92149656450580), (4706133112269025, 91859481625520), (4791498328129009, 83031019411618),
  (4879975682944549, 92295962591677), (4965424581887268, 73976913611749), (5034575418112732, 73976913611749),
  (5120024317055452, 92295962591677), (5208501671870992, 83031019411618), (5293866887730976, 91859481625520),
  (5388526944343511, 92149656450580), (5475329204363198, 86086249298679), (5568194030916664, 97590181236493),
  (5661073155267876, 86133176150219), (5747990939939628, 92332369837845), (5842919206945574, 92332920307599),
  (5929839708849157, 86138944511125), (6022727294983528, 97600841150475), (6115614907223453, 86139030203083),
  (6202535620200250, 92333254460262), (6297464381724048, 92333255463440), (6384385099652677, 86139040715150),
  (6477272727313285, 97600860577819), (6570160355021463, 86139040871304), (6657081073334726, 92333256072361),
  (6752009835759690, 92333256074189), (6838930554081977, 86139040890460), (6931818181818257, 97600860613221),
  (7024705809554622, 86139040890745), (7111626527877610, 92333256075299), (7206555290304215, 92333256075302),
  (7293476008627220, 86139040890780), (7386363636363636, 97600860613286), (7479251264100053, 86139040890780),
  (7566171982423060, 92333256075304), (7661100744849668, 92333256075304), (7748021463172672, 86139040890777),
  (7840909090909085, 97600860613280), (7933796718645489, 86139040890752), (8020717436968432, 92333256075205),
  (8115646199394894, 92333256075042), (8202566917717029, 86139040889043), (8295454545450929, 97600860610123),
  (8388342173180583, 86139040875116), (8475262891468415, 92333256020732), (8570191653814501, 92333255931258),
  (8657112371660676, 86139039937539), (8749999998014952, 97600858877387), (8842887622040853, 86139032294599),
  (8929808321061208, 92333226127820), (9024737039300113, 92333177027837), (9111657495955623, 86138517786709),
  (9204544365224904, 97599908020288), (9297429956984128, 86134324382865), (9384340085098407, 92316827146351),
  (9479244624185422, 92289979179868), (9566022148703379, 85852714880825), (9658494947543690, 97080992685319),
  (9750327747656276, 83761811878981), (9832033239114198, 84506812450473), (9917779558430253, 81421530129691),
  (9982722088273482, 43290718610457)]

/-- precomputed_ggq_rules_reduced1.cpp L3018-3133, entry 44 of `S_7_2_precomputed`. -/
def S_7_2_precomputed_row44 : List (Int × Int) := [
  (16893958132596, 42328702641336), (80393320645975, 79612162793475), (164234166199451, 82628883284907),
  (244123980069420, 81900438281670), (333916051290615, 94923637292312), (424333899045584, 83944876772362),
  (509183034129810, 90239090753649), (601978583459336, 90265342098654), (686957375393298, 84220228285468),
  (777778842891206, 95431021175393), (868601559510057, 84224328502560), (953590450462113, 90281328649441),
  (1046409641629041, 90281376658313), (1131398769560056, 84224831576941), (1222222224163158, 95431950902334),
  (1313045681042895, 84224839050038), (1398034827381377, 90281405799452), (1490854061675328, 90281405886938),
  (1575843208445651, 84224839966780), (1666666666670204, 95431952596564), (1757490124898904, 84224839980398),
  (1842479271702772, 90281405940041), (1935298506075312, 90281405940200), (2020287652879966, 84224839982068),
  (2111111111111117, 95431952599652), (2201934569342277, 84224839982093), (2286923716146992, 90281405940297),
  (2379742950519675, 90281405940297), (2464732097324392, 84224839982096), (2555555555555556, 95431952599657),
  (2646379013786719, 84224839982096), (2731368160591436, 90281405940297), (2824187394964119, 90281405940297),
  (2909176541768836, 84224839982096), (3000000000000000, 95431952599657), (3090823458231164, 84224839982096),
  (3175812605035880, 90281405940297), (3268631839408564, 90281405940297), (3353620986213281, 84224839982096),
  (3444444444444444, 95431952599657), (3535267902675608, 84224839982096), (3620257049480325, 90281405940297),
  (3713076283853008, 90281405940297), (3798065430657726, 84224839982096), (3888888888888889, 95431952599657),
  (3979712347120052, 84224839982096), (4064701493924769, 90281405940297), (4157520728297453, 90281405940297),
  (4242509875102170, 84224839982096), (4333333333333333, 95431952599657), (4424156791564497, 84224839982096),
  (4509145938369214, 90281405940297), (4601965172741898, 90281405940297), (4686954319546615, 84224839982096),
  (4777777777777778, 95431952599657), (4868601236008941, 84224839982096), (4953590382813658, 90281405940297),
  (5046409617186342, 90281405940297), (5131398763991059, 84224839982096), (5222222222222223, 95431952599657),
  (5313045680453385, 84224839982096), (5398034827258102, 90281405940297), (5490854061630787, 90281405940297),
  (5575843208435504, 84224839982096), (5666666666666667, 95431952599657), (5757490124897831, 84224839982096),
  (5842479271702548, 90281405940297), (5935298506075231, 90281405940297), (6020287652879948, 84224839982096),
  (6111111111111112, 95431952599657), (6201934569342274, 84224839982096), (6286923716146992, 90281405940297),
  (6379742950519676, 90281405940297), (6464732097324393, 84224839982096), (6555555555555556, 95431952599657),
  (6646379013786720, 84224839982096), (6731368160591437, 90281405940297), (6824187394964120, 90281405940297),
  (6909176541768837, 84224839982096), (7000000000000001, 95431952599657), (7090823458231164, 84224839982096),
  (7175812605035881, 90281405940297), (7268631839408565, 90281405940297), (7353620986213281, 84224839982096),
  (7444444444444445, 95431952599657), (7535267902675609, 84224839982096), (7620257049480326, 90281405940297),
  (7713076283853009, 90281405940297), (7798065430657724, 84224839982093), (7888888888888883, 95431952599652),
  (7979712347120035, 84224839982068), (8064701493924689, 90281405940200), (8157520728297228, 90281405940041),
  (8242509875101096, 84224839980398), (8333333333329797, 95431952596564), (8424156791554348, 84224839966780),
  (8509145938324673, 90281405886938), (8601965172618623, 90281405799452), (8686954318957105, 84224839050038),
  (8777777775836842, 95431950902334), (8868601230439945, 84224831576941), (8953590358370959, 90281376658313),
  (9046409549537888, 90281328649441), (9131398440489943, 84224328502560), (9222221157108794, 95431021175393),
  (9313042624606703, 84220228285468), (9398021416540665, 90265342098654), (9490816965870190, 90239090753649),
  (9575666100954415, 83944876772362), (9666083948709385, 94923637292312), (9755876019930582, 81900438281670),
  (9835765833800549, 82628883284907), (9919606679354025, 79612162793475), (9983106041867404, 42328702641336)]

/-- precomputed_ggq_rules_reduced1.cpp L3134-3252, entry 45 of `S_7_2_precomputed`. -/
def S_7_2_precomputed_row45 : List (Int × Int) := [
  (16526698173192, 41408513453481), (78645639762367, 77881463602313), (160663858238593, 80832603213496),
  (238816937024432, 80119993971199), (326657006697341, 92860079959871), (415109249066332, 82119988146876),
  (498113837735684, 88277371389439), (588892092514568, 88303052053031), (672023519406487, 82389353757523),
  (760870607176180, 93356433758536), (849718916912013, 82393364839460), (932860223278154, 88318691070105),
  (1023661605941453, 88318738035306), (1106803144134837, 82393856977443), (1195652175811785, 93357343274022),
  (1284501209715875, 82393864288080), (1367642765916564, 88318766542942), (1458444190769342, 88318766628526),
  (1541585747392485, 82393865184893), (1630434782612156, 93357344931422), (1719283817835885, 82393865198215),
  (1802425374491842, 88318766680475), (1893226799421501, 88318766680631), (1976368356078228, 82393865199849),
  (2065217391304354, 93357344934442), (2154066426530488, 82393865199874), (2237207983187275, 88318766680725),
  (2328009408117074, 88318766680725), (2411150964773862, 82393865199877), (2500000000000000, 93357344934447),
  (2588849035226138, 82393865199877), (2671990591882927, 88318766680726), (2762792016812726, 88318766680725),
  (2845933573469513, 82393865199875), (2934782608695650, 93357344934445), (3023631643921783, 82393865199865),
  (3106773200578545, 88318766680685), (3197574625508284, 88318766680619), (3280716182164719, 82393865199169),
  (3369565217389832, 93357344933159), (3458414252613217, 82393865193499), (3541555809255683, 88318766658506),
  (3632357234152697, 88318766622075), (3715498790615336, 82393864811752), (3804347825278719, 93357344227654),
  (3893196858994072, 82393861699830), (3976338407791536, 88318754487218), (4067139814729723, 88318734495453),
  (4150281264844912, 82393652210756), (4239129991250351, 93356957071808), (4327978197448795, 82391944629649),
  (4411115441597439, 88312076206225), (4501906997742909, 88301122138229), (4584990157293092, 82277110982397),
  (4673669960882239, 93144992671668), (4762075571062526, 81379828050927), (4842979205019645, 84926838331817),
  (4929489046219817, 82416450172104), (5000000000000000, 62082358964126), (5070510953780183, 82416450172104),
  (5157020794980355, 84926838331817), (5237924428937474, 81379828050927), (5326330039117760, 93144992671668),
  (5415009842706907, 82277110982397), (5498093002257091, 88301122138229), (5588884558402561, 88312076206225),
  (5672021802551205, 82391944629649), (5760870008749649, 93356957071808), (5849718735155087, 82393652210756),
  (5932860185270277, 88318734495453), (6023661592208464, 88318754487218), (6106803141005928, 82393861699830),
  (6195652174721281, 93357344227654), (6284501209384663, 82393864811752), (6367642765847302, 88318766622075),
  (6458444190744317, 88318766658506), (6541585747386783, 82393865193499), (6630434782610168, 93357344933159),
  (6719283817835281, 82393865199169), (6802425374491715, 88318766680619), (6893226799421455, 88318766680685),
  (6976368356078217, 82393865199865), (7065217391304350, 93357344934445), (7154066426530487, 82393865199875),
  (7237207983187274, 88318766680725), (7328009408117073, 88318766680726), (7411150964773863, 82393865199877),
  (7500000000000000, 93357344934447), (7588849035226137, 82393865199877), (7671990591882927, 88318766680725),
  (7762792016812725, 88318766680725), (7845933573469511, 82393865199874), (7934782608695645, 93357344934442),
  (8023631643921773, 82393865199849), (8106773200578500, 88318766680631), (8197574625508158, 88318766680475),
  (8280716182164115, 82393865198215), (8369565217387844, 93357344931422), (8458414252607515, 82393865184893),
  (8541555809230658, 88318766628526), (8632357234083435, 88318766542942), (8715498790284124, 82393864288080),
  (8804347824188214, 93357343274022), (8893196855865163, 82393856977443), (8976338394058546, 88318738035306),
  (9067139776721846, 88318691070105), (9150281083087987, 82393364839460), (9239129392823821, 93356433758536),
  (9327976480593513, 82389353757523), (9411107907485432, 88303052053031), (9501886162264317, 88277371389439),
  (9584890750933667, 82119988146876), (9673342993302659, 92860079959871), (9761183062975568, 80119993971199),
  (9839336141761407, 80832603213496), (9921354360237632, 77881463602313), (9983473301826808, 41408513453481)]

/-- precomputed_ggq_rules_reduced1.cpp L3253-3373, entry 46 of `S_7_2_precomputed`. -/
def S_7_2_precomputed_row46 : List (Int × Int) := [
  (16175066297167, 40527481252343), (76972328278061, 76224411185242), (157245478276070, 79112760591932),
  (233735725598380, 78415313248408), (319706857618674, 90884333577746), (406277137384070, 80372754356517),
  (487515670975350, 86399129444983), (576362473524896, 86424263711477), (657725146653158, 80636388783959),
  (744681870853282, 91370126657291), (831639791020268, 80640314523727), (913012133421172, 86439569983507),
  (1001881571772486, 86439615949448), (1083254141068138, 80640796190688), (1170212767815789, 91371016821383),
  (1257171396743197, 80640803345781), (1338543983663020, 86439643850539), (1427413463306165, 86439643934302),
  (1508786050639453, 80640804223513), (1595744680854450, 91371018443519), (1682703311073419, 80640804236551),
  (1764075898438824, 86439643985145), (1852945378157214, 86439643985298), (1934317965523372, 80640804238151),
  (2021276595744687, 91371018446475), (2108235225966009, 80640804238174), (2189607813332226, 86439643985391),
  (2278477293050753, 86439643985391), (2359849880416971, 80640804238177), (2446808510638298, 91371018446480),
  (2533767140859625, 80640804238177), (2615139728225843, 86439643985391), (2704009207944369, 86439643985391),
  (2785381795310588, 80640804238177), (2872340425531915, 91371018446480), (2959299055753242, 80640804238177),
  (3040671643119460, 86439643985391), (3129541122837987, 86439643985391), (3210913710204205, 80640804238177),
  (3297872340425532, 91371018446480), (3384830970646859, 80640804238177), (3466203558013077, 86439643985391),
  (3555073037731604, 86439643985391), (3636445625097822, 80640804238177), (3723404255319149, 91371018446480),
  (3810362885540476, 80640804238177), (3891735472906694, 86439643985391), (3980604952625221, 86439643985391),
  (4061977539991439, 80640804238177), (4148936170212766, 91371018446480), (4235894800434092, 80640804238177),
  (4317267387800311, 86439643985391), (4406136867518838, 86439643985391), (4487509454885056, 80640804238177),
  (4574468085106383, 91371018446480), (4661426715327709, 80640804238177), (4742799302693928, 86439643985391),
  (4831668782412455, 86439643985391), (4913041369778673, 80640804238177), (5000000000000000, 91371018446480),
  (5086958630221327, 80640804238177), (5168331217587545, 86439643985391), (5257200697306071, 86439643985391),
  (5338573284672290, 80640804238177), (5425531914893617, 91371018446480), (5512490545114944, 80640804238177),
  (5593863132481162, 86439643985391), (5682732612199689, 86439643985391), (5764105199565908, 80640804238177),
  (5851063829787234, 91371018446480), (5938022460008561, 80640804238177), (6019395047374779, 86439643985391),
  (6108264527093306, 86439643985391), (6189637114459524, 80640804238177), (6276595744680851, 91371018446480),
  (6363554374902177, 80640804238177), (6444926962268396, 86439643985391), (6533796441986923, 86439643985391),
  (6615169029353141, 80640804238177), (6702127659574468, 91371018446480), (6789086289795795, 80640804238177),
  (6870458877162013, 86439643985391), (6959328356880540, 86439643985391), (7040700944246757, 80640804238177),
  (7127659574468085, 91371018446480), (7214618204689413, 80640804238177), (7295990792055630, 86439643985391),
  (7384860271774156, 86439643985391), (7466232859140375, 80640804238177), (7553191489361702, 91371018446480),
  (7640150119583029, 80640804238177), (7721522706949248, 86439643985391), (7810392186667774, 86439643985391),
  (7891764774033990, 80640804238174), (7978723404255313, 91371018446475), (8065682034476629, 80640804238151),
  (8147054621842788, 86439643985298), (8235924101561176, 86439643985145), (8317296688926581, 80640804236551),
  (8404255319145549, 91371018443519), (8491213949360545, 80640804223513), (8572586536693835, 86439643934302),
  (8661456016336979, 86439643850539), (8742828603256803, 80640803345781), (8829787232184210, 91371016821383),
  (8916745858931862, 80640796190688), (8998118428227513, 86439615949448), (9086987866578828, 86439569983507),
  (9168360208979732, 80640314523727), (9255318129146718, 91370126657291), (9342274853346842, 80636388783959),
  (9423637526475104, 86424263711477), (9512484329024650, 86399129444983), (9593722862615930, 80372754356517),
  (9680293142381327, 90884333577746), (9766264274401619, 78415313248408), (9842754521723930, 79112760591932),
  (9923027671721938, 76224411185242), (9983824933702834, 40527481252343)]

/-- precomputed_ggq_rules_reduced1.cpp L3374-3497, entry 47 of `S_7_2_precomputed`. -/
def S_7_2_precomputed_row47 : List (Int × Int) := [
  (15838085749309, 39683158726252), (75368738105602, 74636402618883), (153969530811985, 77464578079600),
  (228866231315081, 76781660889066), (313046298084951, 88990909961543), (397813030355235, 78698321974089),
  (477359094496697, 84599147581546), (564354921993128, 84623758217488), (644022539431217, 78956464017626),
  (729167665210506, 89466582351931), (814313962040679, 78960307971150), (893991047308231, 84638745608851),
  (981009039027226, 84638790617168), (1060686346462552, 78960779603382), (1145833335152961, 89467453970938),
  (1230980325977714, 78960786609410), (1310657650670040, 84638817936986), (1397675682820619, 84638818019004),
  (1477353007917798, 78960787468856), (1562500000003316, 89467455559279), (1647646992092723, 78960787481623),
  (1727324317221348, 84638818068788), (1814342349445605, 84638818068938), (1894019674574968, 78960787483189),
  (1979166666666672, 89467455562173), (2064313658758384, 78960787483212), (2143990983887805, 84638818069028),
  (2231009016112196, 84638818069029), (2310686341241617, 78960787483215), (2395833333333333, 89467455562179),
  (2480980325425049, 78960787483215), (2560657650554471, 84638818069029), (2647675682778862, 84638818069029),
  (2727353007908284, 78960787483215), (2812500000000000, 89467455562179), (2897646992091715, 78960787483215),
  (2977324317221136, 84638818069027), (3064342349445525, 84638818069024), (3144019674574930, 78960787483183),
  (3229166666666599, 89467455562119), (3314313658758188, 78960787482922), (3393990983886951, 84638818068007),
  (3481009016109834, 84638818066331), (3560686341230326, 78960787465362), (3645833333296156, 89467455529668),
  (3730980325318379, 78960787322221), (3810657650086289, 84638817508154), (3897675681483104, 84638816588573),
  (3977353001711834, 78960777686159), (4062499979598433, 89467437721269), (4147646933554939, 78960699135198),
  (4227324060299891, 84638510281966), (4314341638388675, 84638005684691), (4394016274337780, 78955411471034),
  (4479155471659724, 89457666133452), (4564281562667068, 78912395190456), (4643850301018447, 84470518413032),
  (4730622019579939, 84204524823393), (4808873467451591, 76111767793983), (4889977709365836, 84604632375704),
  (4968305866729995, 67812170810770), (5031694133270004, 67812170810770), (5110022290634163, 84604632375704),
  (5191126532548409, 76111767793983), (5269377980420060, 84204524823393), (5356149698981552, 84470518413032),
  (5435718437332931, 78912395190456), (5520844528340275, 89457666133452), (5605983725662219, 78955411471034),
  (5685658361611325, 84638005684691), (5772675939700109, 84638510281966), (5852353066445060, 78960699135198),
  (5937500020401567, 89467437721269), (6022646998288166, 78960777686159), (6102324318516895, 84638816588573),
  (6189342349913711, 84638817508154), (6269019674681621, 78960787322221), (6354166666703843, 89467455529668),
  (6439313658769674, 78960787465362), (6518990983890165, 84638818066331), (6606009016113048, 84638818068007),
  (6685686341241812, 78960787482922), (6770833333333401, 89467455562119), (6855980325425068, 78960787483183),
  (6935657650554475, 84638818069024), (7022675682778863, 84638818069027), (7102353007908284, 78960787483215),
  (7187500000000000, 89467455562179), (7272646992091716, 78960787483215), (7352324317221137, 84638818069029),
  (7439342349445528, 84638818069029), (7519019674574949, 78960787483215), (7604166666666666, 89467455562179),
  (7689313658758383, 78960787483215), (7768990983887805, 84638818069029), (7856009016112195, 84638818069028),
  (7935686341241615, 78960787483212), (8020833333333327, 89467455562173), (8105980325425032, 78960787483189),
  (8185657650554395, 84638818068938), (8272675682778652, 84638818068788), (8352353007907276, 78960787481623),
  (8437499999996684, 89467455559279), (8522646992082201, 78960787468856), (8602324317179380, 84638818019004),
  (8689342349329958, 84638817936986), (8769019674022285, 78960786609410), (8854166664847039, 89467453970938),
  (8939313653537448, 78960779603382), (9018990960972773, 84638790617168), (9106008952691769, 84638745608851),
  (9185686037959321, 78960307971150), (9270832334789494, 89466582351931), (9355977460568783, 78956464017626),
  (9435645078006872, 84623758217488), (9522640905503303, 84599147581546), (9602186969644764, 78698321974089),
  (9686953701915049, 88990909961543), (9771133768684919, 76781660889066), (9846030469188014, 77464578079600),
  (9924631261894398, 74636402618883), (9984161914250691, 39683158726252)]

/-- `S_7_2_precomputed`, precomputed_ggq_rules_reduced1.cpp L376-3498. -/
def S_7_2_precomputed : List (List (Int × Int)) := [
  S_7_2_precomputed_row0, S_7_2_precomputed_row1, S_7_2_precomputed_row2, S_7_2_precomputed_row3,
  S_7_2_precomputed_row4, S_7_2_precomputed_row5, S_7_2_precomputed_row6, S_7_2_precomputed_row7,
  S_7_2_precomputed_row8, S_7_2_precomputed_row9, S_7_2_precomputed_row10, S_7_2_precomputed_row11,
  S_7_2_precomputed_row12, S_7_2_precomputed_row13, S_7_2_precomputed_row14, S_7_2_precomputed_row15,
  S_7_2_precomputed_row16, S_7_2_precomputed_row17, S_7_2_precomputed_row18, S_7_2_precomputed_row19,
  S_7_2_precomputed_row20, S_7_2_precomputed_row21, S_7_2_precomputed_row22, S_7_2_precomputed_row23,
  S_7_2_precomputed_row24, S_7_2_precomputed_row25, S_7_2_precomputed_row26, S_7_2_precomputed_row27,
  S_7_2_precomputed_row28, S_7_2_precomputed_row29, S_7_2_precomputed_row30, S_7_2_precomputed_row31,
  S_7_2_precomputed_row32, S_7_2_precomputed_row33, S_7_2_precomputed_row34, S_7_2_precomputed_row35,
  S_7_2_precomputed_row36, S_7_2_precomputed_row37, S_7_2_precomputed_row38, S_7_2_precomputed_row39,
  S_7_2_precomputed_row40, S_7_2_precomputed_row41, S_7_2_precomputed_row42, S_7_2_precomputed_row43,
  S_7_2_precomputed_row44, S_7_2_precomputed_row45, S_7_2_precomputed_row46, S_7_2_precomputed_row47]

end QuESo.Rules.Tables
