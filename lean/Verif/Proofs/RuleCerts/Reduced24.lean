import Verif.Proofs.RuleCerts.Lagrange

/-! # Certificates of the rules `ggqReduced2` for degree 4 (generated) -/
namespace QuESo.Rules

def cert_Reduced2_4_1 : List (Nat × List Int) :=
  [(4, [])]

def cert_Reduced2_4_2 : List (Nat × List Int) :=
  [(3, [0, -38675134594812, 0]), (3, [])]

def cert_Reduced2_4_3 : List (Nat × List Int) :=
  [(3, [847083262665713, -25162481422216, -7652732530884]), (2, [-847083262665714, -25162481422216, 7652732530884]), (3, [])]

def cert_Reduced2_4_4 : List (Nat × List Int) :=
  [(3, [1200053943493468, -8251953076602, -11272775713362]), (2, [-2, -48788423086707, 0]), (2, [-1200053943493474, -8251953076602, 11272775713362]), (3, [])]

def cert_Reduced2_4_5 : List (Nat × List Int) :=
  [(3, [1304484289939836, -1960592141904, -12374591762243]), (2, [763864880664077, -37647965757597, -8809409222826]), (2, [-763864880664075, -37647965757597, 8809409222826]), (2, [-1304484289939837, -1960592141904, 12374591762243]), (3, [])]

def cert_Reduced2_4_6 : List (Nat × List Int) :=
  [(3, [1331849464615202, -202483928705, -12666274785687]), (2, [1109192911489281, -24250689399185, -13023895319086]), (2, [0, -49356000930283, 0]), (2, [-1109192911489273, -24250689399185, 13023895319086]), (2, [-1331849464615196, -202483928705, 12666274785687]), (3, [])]

def cert_Reduced2_4_7 : List (Nat × List Int) :=
  [(3, [1338813270374876, 252534075605, -12740718865509]), (2, [1213191743798163, -18972540833442, -14343030620523]), (2, [759418160403744, -38312593103641, -8870787509987]), (2, [-759418160403736, -38312593103640, 8870787509987]), (2, [-1213191743798153, -18972540833442, 14343030620522]), (2, [-1338813270374878, 252534075605, 12740718865509]), (3, [])]

def cert_Reduced2_4_8 : List (Nat × List Int) :=
  [(3, [1340570982417022, 367879913537, -12759523487830]), (2, [1240625275357977, -17471138527876, -14695959068049]), (2, [1104330870871202, -25102296078281, -13116661416471]), (2, [-3, -49385250161122, 0]), (2, [-1104330870871194, -25102296078280, 13116661416471]), (2, [-1240625275357968, -17471138527876, 14695959068049]), (2, [-1340570982417011, 367879913537, 12759523487830]), (3, [])]

def cert_Reduced2_4_9 : List (Nat × List Int) :=
  [(3, [1341014348585864, 397006529417, -12764267702949]), (2, [1247622622843675, -17080532060039, -14786340729469]), (2, [1208301076516863, -19879251297572, -14447458387549]), (2, [759189115991545, -38346820265302, -8873947858471]), (2, [-759189115991554, -38346820265302, 8873947858471]), (2, [-1208301076516863, -19879251297572, 14447458387549]), (2, [-1247622622843666, -17080532060038, 14786340729469]), (2, [-1341014348585864, 397006529417, 12764267702949]), (3, [])]

def cert_Reduced2_4_10 : List (Nat × List Int) :=
  [(3, [1341126025132694, 404345055734, -12765462750738]), (2, [1249390086206785, -16981369170948, -14809194204560]), (2, [1235736489314523, -18391945665679, -14803693237337]), (2, [1104080274674573, -25146176827645, -13121440168684]), (2, [9, -49386754737115, 0]), (2, [-1104080274674582, -25146176827646, 13121440168684]), (2, [-1235736489314508, -18391945665679, 14803693237336]), (2, [-1249390086206784, -16981369170948, 14809194204560]), (2, [-1341126025132685, 404345055734, 12765462750738]), (3, [])]

def cert_Reduced2_4_11 : List (Nat × List Int) :=
  [(3, [1341154180723681, 406195353447, -12765764046732]), (2, [1249836008915087, -16956318885285, -14814961565967]), (2, [1242735152283874, -18004888799861, -14894937050206]), (2, [1208048953249841, -19925981322761, -14452839060636]), (2, [759177332579021, -38348581096713, -8874110442595]), (2, [-759177332579004, -38348581096713, 8874110442594]), (2, [-1208048953249831, -19925981322760, 14452839060636]), (2, [-1242735152283872, -18004888799861, 14894937050206]), (2, [-1249836008915074, -16956318885284, 14814961565966]), (2, [-1341154180723687, 406195353447, 12765764046732]), (3, [])]

def cert_Reduced2_4_12 : List (Nat × List Int) :=
  [(3, [1341161271827727, 406661366844, -12765839929634]), (2, [1249948336399811, -16950006710894, -14816414456405]), (2, [1244503014318109, -17906618726025, -14918009686448]), (2, [1235484448904896, -18439405074285, -14809244632564]), (2, [1104067381616073, -25148434439554, -13121686026552]), (2, [-1, -49386832139006, 0]), (2, [-1104067381616069, -25148434439554, 13121686026552]), (2, [-1235484448904883, -18439405074284, 14809244632564]), (2, [-1244503014318112, -17906618726025, 14918009686448]), (2, [-1249948336399816, -16950006710894, 14816414456405]), (2, [-1341161271827725, 406661366844, 12765839929634]), (3, [])]

def cert_Reduced2_4_13 : List (Nat × List Int) :=
  [(3, [1341163059568805, 406778854192, -12765859060518]), (2, [1249976656596753, -16948415145584, -14816780767840]), (2, [1244949042609194, -17881793407291, -14923832440084]), (2, [1242483176038070, -18052531913353, -14900532966649]), (2, [1208035981367394, -19928385575083, -14453115891899]), (2, [759176726380078, -38348671682824, -8874118806744]), (2, [-759176726380090, -38348671682825, 8874118806744]), (2, [-1208035981367411, -19928385575083, 14453115891899]), (2, [-1242483176038089, -18052531913353, 14900532966649]), (2, [-1244949042609188, -17881793407291, 14923832440084]), (2, [-1249976656596738, -16948415145584, 14816780767839]), (2, [-1341163059568813, 406778854192, 12765859060519]), (3, [])]

def cert_Reduced2_4_14 : List (Nat × List Int) :=
  [(3, [1341163509816013, 406808443713, -12765863878682]), (2, [1249983789191507, -16948014293056, -14816873025750]), (2, [1245061397050709, -17875537881228, -14925299290620]), (2, [1244251057698045, -17954308049358, -14923616920680]), (2, [1235471481217797, -18441846866566, -14809530248960]), (2, [1104066718327366, -25148550583237, -13121698674793]), (2, [2, -49386836120951, 0]), (2, [-1104066718327369, -25148550583237, 13121698674793]), (2, [-1235471481217794, -18441846866567, 14809530248960]), (2, [-1244251057698030, -17954308049357, 14923616920680]), (2, [-1245061397050708, -17875537881228, 14925299290620]), (2, [-1249983789191504, -16948014293056, 14816873025750]), (2, [-1341163509815989, 406808443713, 12765863878682]), (3, [])]

def cert_Reduced2_4_15 : List (Nat × List Int) :=
  [(3, [1341163623327899, 406815903529, -12765865093389]), (2, [1249985587395225, -16947913233309, -14816896284985]), (2, [1245089724069471, -17873960596739, -14925669122166]), (2, [1244697091197999, -17929494374589, -14929442534877]), (2, [1242470211634924, -18054983160714, -14900820874061]), (2, [1208035314022524, -19928509262941, -14453130133601]), (2, [759176695194067, -38348676343047, -8874119237039]), (2, [-759176695194052, -38348676343047, 8874119237039]), (2, [-1208035314022525, -19928509262941, 14453130133601]), (2, [-1242470211634925, -18054983160714, 14900820874061]), (2, [-1244697091198018, -17929494374589, 14929442534877]), (2, [-1245089724069487, -17873960596740, 14925669122166]), (2, [-1249985587395244, -16947913233310, 14816896284985]), (2, [-1341163623327900, 406815903529, 12765865093389]), (3, [])]

def cert_Reduced2_4_16 : List (Nat × List Int) :=
  [(3, [1341163651916028, 406817782305, -12765865399316]), (2, [1249986040277568, -16947887781109, -14816902142886]), (2, [1245096858384105, -17873563340813, -14925762266667]), (2, [1244809446970238, -17923241780581, -14930910106340]), (2, [1244238094300290, -17956761675096, -14923905410495]), (2, [1235470814088443, -18441972485737, -14809544942623]), (2, [1104066684204322, -25148556558276, -13121699325485]), (2, [0, -49386836325803, 0]), (2, [-1104066684204322, -25148556558276, 13121699325485]), (2, [-1235470814088464, -18441972485738, 14809544942623]), (2, [-1244238094300271, -17956761675096, 14923905410495]), (2, [-1244809446970259, -17923241780582, 14930910106340]), (2, [-1245096858384100, -17873563340814, 14925762266667]), (2, [-1249986040277565, -16947887781109, 14816902142886]), (2, [-1341163651916011, 406817782306, 12765865399316]), (3, [])]

def cert_Reduced2_4_17 : List (Nat × List Int) :=
  [(3, [1341163659123539, 406818255959, -12765865476444]), (2, [1249986154453805, -16947881364354, -14816903619723]), (2, [1245098657021530, -17873463187801, -14925785749423]), (2, [1244837774325801, -17921665235253, -14931280119672]), (2, [1244684128067171, -17931948599636, -14929731171894]), (2, [1242469544674498, -18055109266321, -14900835685588]), (2, [1208035279690786, -19928515626092, -14453130866268]), (2, [759176693589689, -38348676582793, -8874119259176]), (2, [-759176693589702, -38348676582794, 8874119259176]), (2, [-1208035279690785, -19928515626092, 14453130866268]), (2, [-1242469544674498, -18055109266321, 14900835685588]), (2, [-1244684128067173, -17931948599636, 14929731171894]), (2, [-1244837774325796, -17921665235253, 14931280119672]), (2, [-1245098657021528, -17873463187801, 14925785749423]), (2, [-1249986154453809, -16947881364354, 14816903619723]), (2, [-1341163659123540, 406818255959, 12765865476444]), (3, [])]

def cert_Reduced2_4_18 : List (Nat × List Int) :=
  [(3, [1341163660938626, 406818375253, -12765865495868]), (2, [1249986183209356, -16947879748279, -14816903991667]), (2, [1245099110013153, -17873437963967, -14925791663619]), (2, [1244844908725363, -17921268165484, -14931373309959]), (2, [1244796483907586, -17925696156537, -14931198780456]), (2, [1244237427391509, -17956887903063, -14923920251984]), (2, [1235470779767854, -18441978948246, -14809545698542]), (2, [1104066682448851, -25148556865664, -13121699358960]), (2, [0, -49386836336342, 0]), (2, [-1104066682448848, -25148556865663, 13121699358960]), (2, [-1235470779767837, -18441978948245, 14809545698542]), (2, [-1244237427391512, -17956887903063, 14923920251984]), (2, [-1244796483907580, -17925696156538, 14931198780456]), (2, [-1244844908725347, -17921268165483, 14931373309959]), (2, [-1245099110013177, -17873437963967, 14925791663619]), (2, [-1249986183209351, -16947879748279, 14816903991667]), (2, [-1341163660938623, 406818375253, 12765865495868]), (3, [])]

def cert_Reduced2_4_19 : List (Nat × List Int) :=
  [(3, [1341163661396333, 406818405325, -12765865500765]), (2, [1249986190458939, -16947879340850, -14816904085438]), (2, [1245099224216865, -17873431604780, -14925793154647]), (2, [1244846707384152, -17921168059401, -14931396804258]), (2, [1244824811280400, -17924119649255, -14931568803142]), (2, [1244683461172158, -17932074858437, -14929746020956]), (2, [1242469510362593, -18055115753859, -14900836447571]), (2, [1208035277924618, -19928515953447, -14453130903961]), (2, [759176693507161, -38348676595128, -8874119260315]), (2, [-759176693507141, -38348676595127, 8874119260315]), (2, [-1208035277924624, -19928515953446, 14453130903961]), (2, [-1242469510362587, -18055115753859, 14900836447570]), (2, [-1244683461172161, -17932074858437, 14929746020956]), (2, [-1244824811280427, -17924119649255, 14931568803142]), (2, [-1244846707384151, -17921168059401, 14931396804258]), (2, [-1245099224216862, -17873431604780, 14925793154647]), (2, [-1249986190458918, -16947879340849, 14816904085438]), (2, [-1341163661396315, 406818405326, 12765865500765]), (3, [])]

def cert_Reduced2_4_20 : List (Nat × List Int) :=
  [(3, [1341163661511580, 406818412901, -12765865501999]), (2, [1249986192284718, -16947879238235, -14816904109055]), (2, [1245099252979368, -17873430003204, -14925793530167]), (2, [1244847160381180, -17921142847386, -14931402721361]), (2, [1244831945684288, -17923722589065, -14931661995785]), (2, [1244795817016059, -17925822423101, -14931213631426]), (2, [1244237393082269, -17956894396893, -14923921015508]), (2, [1235470778002192, -18441979280712, -14809545737430]), (2, [1104066682358565, -25148556881479, -13121699360682]), (2, [0, -49386836336889, 0]), (2, [-1104066682358565, -25148556881479, 13121699360682]), (2, [-1235470778002164, -18441979280712, 14809545737430]), (2, [-1244237393082268, -17956894396893, 14923921015508]), (2, [-1244795817016085, -17925822423101, 14931213631426]), (2, [-1244831945684291, -17923722589065, 14931661995785]), (2, [-1244847160381177, -17921142847386, 14931402721361]), (2, [-1245099252979318, -17873430003202, 14925793530166]), (2, [-1249986192284702, -16947879238233, 14816904109055]), (2, [-1341163661511582, 406818412901, 12765865501999]), (3, [])]

def cert_Reduced2_4_21 : List (Nat × List Int) :=
  [(3, [1341163661540606, 406818414812, -12765865502310]), (2, [1249986192745046, -16947879212367, -14816904115009]), (2, [1245099260230673, -17873429599431, -14925793624839]), (2, [1244847274586277, -17921136491182, -14931404213122]), (2, [1244833744344227, -17923622485399, -14931685490678]), (2, [1244824144389764, -17924245917774, -14931583654594]), (2, [1244683426863576, -17932081353850, -14929746784869]), (2, [1242469508597364, -18055116087607, -14900836486771]), (2, [1208035277833718, -19928515970286, -14453130905900]), (2, [759176693502898, -38348676595762, -8874119260373]), (2, [-759176693502921, -38348676595763, 8874119260374]), (2, [-1208035277833740, -19928515970288, 14453130905900]), (2, [-1242469508597362, -18055116087608, 14900836486771]), (2, [-1244683426863608, -17932081353852, 14929746784870]), (2, [-1244824144389812, -17924245917776, 14931583654594]), (2, [-1244833744344271, -17923622485402, 14931685490678]), (2, [-1244847274586273, -17921136491184, 14931404213122]), (2, [-1245099260230704, -17873429599433, 14925793624839]), (2, [-1249986192745093, -16947879212369, 14816904115009]), (2, [-1341163661540632, 406818414810, 12765865502310]), (3, [])]

def cert_Reduced2_4_22 : List (Nat × List Int) :=
  [(3, [1341163661547923, 406818415293, -12765865502388]), (2, [1249986192860956, -16947879205851, -14816904116508]), (2, [1245099262056945, -17873429497740, -14925793648682]), (2, [1244847303349137, -17921134890358, -14931404588826]), (2, [1244834197341533, -17923597273994, -14931691407931]), (2, [1244831278793890, -17923848858079, -14931676847358]), (2, [1244795782707646, -17925828918915, -14931214395438]), (2, [1244237391317225, -17956894730970, -14923921054788]), (2, [1235470777911363, -18441979297816, -14809545739431]), (2, [1104066682353915, -25148556882292, -13121699360771]), (2, [2, -49386836336910, 0]), (2, [-1104066682353887, -25148556882290, 13121699360771]), (2, [-1235470777911339, -18441979297814, 14809545739431]), (2, [-1244237391317203, -17956894730968, 14923921054788]), (2, [-1244795782707627, -17925828918913, 14931214395438]), (2, [-1244831278793862, -17923848858077, 14931676847358]), (2, [-1244834197341510, -17923597273992, 14931691407931]), (2, [-1244847303349109, -17921134890356, 14931404588826]), (2, [-1245099262056920, -17873429497739, 14925793648682]), (2, [-1249986192860954, -16947879205850, 14816904116508]), (2, [-1341163661547889, 406818415294, 12765865502388]), (3, [])]

def cert_Reduced2_4_23 : List (Nat × List Int) :=
  [(3, [1341163661549774, 406818415414, -12765865502408]), (2, [1249986192890206, -16947879204209, -14816904116886]), (2, [1245099262517353, -17873429472102, -14925793654693]), (2, [1244847310600528, -17921134486773, -14931404683545]), (2, [1244834311546691, -17923590917942, -14931692899730]), (2, [1244833077453871, -17923748754537, -14931700342281]), (2, [1244824110081434, -17924252413689, -14931584418630]), (2, [1244683425098562, -17932081688007, -14929746824169]), (2, [1242469508506541, -18055116104776, -14900836488787]), (2, [1208035277829054, -19928515971153, -14453130906000]), (2, [759176693502678, -38348676595793, -8874119260376]), (2, [-759176693502675, -38348676595794, 8874119260376]), (2, [-1208035277829050, -19928515971153, 14453130906000]), (2, [-1242469508506542, -18055116104776, 14900836488787]), (2, [-1244683425098560, -17932081688007, 14929746824169]), (2, [-1244824110081411, -17924252413688, 14931584418630]), (2, [-1244833077453908, -17923748754538, 14931700342282]), (2, [-1244834311546688, -17923590917942, 14931692899730]), (2, [-1244847310600531, -17921134486773, 14931404683545]), (2, [-1245099262517356, -17873429472102, 14925793654693]), (2, [-1249986192890199, -16947879204209, 14816904116886]), (2, [-1341163661549765, 406818415413, 12765865502408]), (3, [])]

def cert_Reduced2_4_24 : List (Nat × List Int) :=
  [(3, [1341163661550244, 406818415444, -12765865502413]), (2, [1249986192897559, -16947879203795, -14816904116981]), (2, [1245099262633324, -17873429465646, -14925793656207]), (2, [1244847312426809, -17921134385129, -14931404707400]), (2, [1244834340309546, -17923589317155, -14931693275443]), (2, [1244833530451174, -17923723543161, -14931706259542]), (2, [1244831244485536, -17923855354017, -14931677611400]), (2, [1244795780942639, -17925829253092, -14931214434743]), (2, [1244237391226408, -17956894748156, -14923921056809]), (2, [1235470777906675, -18441979298694, -14809545739534]), (2, [1104066682353668, -25148556882333, -13121699360775]), (2, [-1, -49386836336909, 0]), (2, [-1104066682353674, -25148556882333, 13121699360775]), (2, [-1235470777906701, -18441979298696, 14809545739534]), (2, [-1244237391226399, -17956894748156, 14923921056809]), (2, [-1244795780942668, -17925829253094, 14931214434743]), (2, [-1244831244485562, -17923855354018, 14931677611401]), (2, [-1244833530451174, -17923723543162, 14931706259542]), (2, [-1244834340309540, -17923589317155, 14931693275443]), (2, [-1244847312426837, -17921134385130, 14931404707400]), (2, [-1245099262633325, -17873429465646, 14925793656207]), (2, [-1249986192897553, -16947879203796, 14816904116981]), (2, [-1341163661550240, 406818415444, 12765865502413]), (3, [])]

def cert_Reduced2_4_25 : List (Nat × List Int) :=
  [(3, [1341163661550358, 406818415452, -12765865502414]), (2, [1249986192899415, -16947879203691, -14816904117005]), (2, [1245099262662559, -17873429464018, -14925793656589]), (2, [1244847312887225, -17921134359504, -14931404713414]), (2, [1244834347560944, -17923588913581, -14931693370164]), (2, [1244833644656361, -17923717187120, -14931707751343]), (2, [1244833043145542, -17923755250484, -14931701106326]), (2, [1244824108316423, -17924252747873, -14931584457936]), (2, [1244683425007771, -17932081705199, -14929746826191]), (2, [1242469508501874, -18055116105661, -14900836488891]), (2, [1208035277828825, -19928515971198, -14453130906005]), (2, [759176693502676, -38348676595796, -8874119260377]), (2, [-759176693502649, -38348676595794, 8874119260376]), (2, [-1208035277828801, -19928515971196, 14453130906005]), (2, [-1242469508501872, -18055116105660, 14900836488891]), (2, [-1244683425007747, -17932081705198, 14929746826191]), (2, [-1244824108316423, -17924252747872, 14931584457936]), (2, [-1244833043145543, -17923755250484, 14931701106326]), (2, [-1244833644656327, -17923717187118, 14931707751343]), (2, [-1244834347560919, -17923588913579, 14931693370164]), (2, [-1244847312887232, -17921134359503, 14931404713414]), (2, [-1245099262662526, -17873429464017, 14925793656589]), (2, [-1249986192899393, -16947879203689, 14816904117005]), (2, [-1341163661550358, 406818415453, 12765865502414]), (3, [])]

def cert_Reduced2_4_26 : List (Nat × List Int) :=
  [(3, [1341163661550383, 406818415454, -12765865502414]), (2, [1249986192899897, -16947879203665, -14816904117012]), (2, [1245099262669908, -17873429463608, -14925793656685]), (2, [1244847313003206, -17921134353050, -14931404714929]), (2, [1244834349387228, -17923588811940, -14931693394020]), (2, [1244833673419227, -17923715586335, -14931708127057]), (2, [1244833496142863, -17923730039111, -14931707023587]), (2, [1244831242720556, -17923855688204, -14931677650707]), (2, [1244795780851859, -17925829270285, -14931214436765]), (2, [1244237391221745, -17956894749041, -14923921056913]), (2, [1235470777906464, -18441979298742, -14809545739539]), (2, [1104066682353668, -25148556882336, -13121699360776]), (2, [4, -49386836336911, 0]), (2, [-1104066682353601, -25148556882333, 13121699360775]), (2, [-1235470777906416, -18441979298738, 14809545739539]), (2, [-1244237391221717, -17956894749039, 14923921056913]), (2, [-1244795780851868, -17925829270285, 14931214436765]), (2, [-1244831242720549, -17923855688204, 14931677650707]), (2, [-1244833496142829, -17923730039110, 14931707023587]), (2, [-1244833673419171, -17923715586332, 14931708127056]), (2, [-1244834349387232, -17923588811939, 14931693394020]), (2, [-1244847313003175, -17921134353049, 14931404714929]), (2, [-1245099262669881, -17873429463607, 14925793656685]), (2, [-1249986192899865, -16947879203664, 14816904117011]), (2, [-1341163661550360, 406818415455, 12765865502414]), (3, [])]

def cert_Reduced2_4_27 : List (Nat × List Int) :=
  [(3, [1341163661550385, 406818415455, -12765865502414]), (2, [1249986192899979, -16947879203658, -14816904117013]), (2, [1245099262671779, -17873429463505, -14925793656709]), (2, [1244847313032435, -17921134351423, -14931404715311]), (2, [1244834349847648, -17923588786315, -14931693400034]), (2, [1244833680670611, -17923715182760, -14931708221778]), (2, [1244833610348024, -17923723683067, -14931708515388]), (2, [1244833041380535, -17923755584668, -14931701145632]), (2, [1244824108225625, -17924252765065, -14931584459958]), (2, [1244683425003085, -17932081706082, -14929746826295]), (2, [1242469508501642, -18055116105705, -14900836488897]), (2, [1208035277828803, -19928515971199, -14453130906005]), (2, [759176693502655, -38348676595795, -8874119260376]), (2, [-759176693502680, -38348676595796, 8874119260377]), (2, [-1208035277828808, -19928515971200, 14453130906005]), (2, [-1242469508501676, -18055116105708, 14900836488897]), (2, [-1244683425003134, -17932081706086, 14929746826295]), (2, [-1244824108225650, -17924252765066, 14931584459958]), (2, [-1244833041380531, -17923755584669, 14931701145632]), (2, [-1244833610348028, -17923723683068, 14931708515388]), (2, [-1244833680670648, -17923715182761, 14931708221778]), (2, [-1244834349847684, -17923588786317, 14931693400034]), (2, [-1244847313032431, -17921134351424, 14931404715311]), (2, [-1245099262671811, -17873429463508, 14925793656709]), (2, [-1249986192900048, -16947879203661, 14816904117013]), (2, [-1341163661550420, 406818415452, 12765865502414]), (3, [])]

def cert_Reduced2_4_28 : List (Nat × List Int) :=
  [(3, [1341163661550387, 406818415455, -12765865502414]), (2, [1249986192900015, -16947879203656, -14816904117013]), (2, [1245099262672241, -17873429463479, -14925793656715]), (2, [1244847313039808, -17921134351014, -14931404715407]), (2, [1244834349963599, -17923588779860, -14931693401549]), (2, [1244833682496893, -17923715081119, -14931708245634]), (2, [1244833639110876, -17923722082281, -14931708891102]), (2, [1244833494377838, -17923730373294, -14931707062893]), (2, [1244831242629746, -17923855705394, -14931677652729]), (2, [1244795780847179, -17925829271168, -14931214436869]), (2, [1244237391221483, -17956894749085, -14923921056918]), (2, [1235470777906440, -18441979298742, -14809545739539]), (2, [1104066682353641, -25148556882334, -13121699360776]), (2, [7, -49386836336911, 0]), (2, [-1104066682353671, -25148556882337, 13121699360776]), (2, [-1235470777906463, -18441979298745, 14809545739539]), (2, [-1244237391221511, -17956894749088, 14923921056918]), (2, [-1244795780847166, -17925829271171, 14931214436869]), (2, [-1244831242629768, -17923855705397, 14931677652729]), (2, [-1244833494377858, -17923730373298, 14931707062893]), (2, [-1244833639110858, -17923722082283, 14931708891101]), (2, [-1244833682496861, -17923715081118, 14931708245633]), (2, [-1244834349963627, -17923588779862, 14931693401549]), (2, [-1244847313039796, -17921134351014, 14931404715407]), (2, [-1245099262672239, -17873429463479, 14925793656715]), (2, [-1249986192900050, -16947879203658, 14816904117014]), (2, [-1341163661550407, 406818415453, 12765865502414]), (3, [])]

def cert_Reduced2_4_29 : List (Nat × List Int) :=
  [(3, [1341163661550399, 406818415455, -12765865502414]), (2, [1249986192900044, -16947879203656, -14816904117014]), (2, [1245099262672370, -17873429463473, -14925793656717]), (2, [1244847313041649, -17921134350910, -14931404715431]), (2, [1244834349992842, -17923588778233, -14931693401931]), (2, [1244833682957304, -17923715055493, -14931708251648]), (2, [1244833646362283, -17923721678708, -14931708985823]), (2, [1244833608583011, -17923724017252, -14931708554694]), (2, [1244833041289733, -17923755601861, -14931701147654]), (2, [1244824108220944, -17924252765949, -14931584460062]), (2, [1244683425002851, -17932081706129, -14929746826300]), (2, [1242469508501611, -18055116105708, -14900836488897]), (2, [1208035277828806, -19928515971200, -14453130906005]), (2, [759176693502664, -38348676595796, -8874119260377]), (2, [-759176693502666, -38348676595796, 8874119260377]), (2, [-1208035277828801, -19928515971201, 14453130906005]), (2, [-1242469508501612, -18055116105708, 14900836488897]), (2, [-1244683425002852, -17932081706129, 14929746826300]), (2, [-1244824108220975, -17924252765951, 14931584460063]), (2, [-1244833041289729, -17923755601861, 14931701147654]), (2, [-1244833608583046, -17923724017254, 14931708554694]), (2, [-1244833646362268, -17923721678710, 14931708985823]), (2, [-1244833682957334, -17923715055495, 14931708251648]), (2, [-1244834349992872, -17923588778235, 14931693401931]), (2, [-1244847313041639, -17921134350911, 14931404715431]), (2, [-1245099262672368, -17873429463473, 14925793656717]), (2, [-1249986192900035, -16947879203657, 14816904117013]), (2, [-1341163661550392, 406818415454, 12765865502414]), (3, [])]

def cert_Reduced2_4_30 : List (Nat × List Int) :=
  [(3, [1341163661550376, 406818415456, -12765865502414]), (2, [1249986192900035, -16947879203656, -14816904117014]), (2, [1245099262672377, -17873429463470, -14925793656717]), (2, [1244847313042106, -17921134350884, -14931404715437]), (2, [1244834350000209, -17923588777824, -14931693402027]), (2, [1244833683073289, -17923715049040, -14931708253163]), (2, [1244833648188575, -17923721577068, -14931709009679]), (2, [1244833637345876, -17923722416468, -14931708930408]), (2, [1244833494287053, -17923730390487, -14931707064915]), (2, [1244831242625057, -17923855706279, -14931677652833]), (2, [1244795780846923, -17925829271214, -14931214436874]), (2, [1244237391221478, -17956894749088, -14923921056918]), (2, [1235470777906439, -18441979298743, -14809545739539]), (2, [1104066682353654, -25148556882335, -13121699360776]), (2, [-6, -49386836336913, 0]), (2, [-1104066682353683, -25148556882337, 13121699360776]), (2, [-1235470777906439, -18441979298744, 14809545739539]), (2, [-1244237391221514, -17956894749090, 14923921056918]), (2, [-1244795780846954, -17925829271217, 14931214436874]), (2, [-1244831242625087, -17923855706282, 14931677652833]), (2, [-1244833494287085, -17923730390490, 14931707064915]), (2, [-1244833637345896, -17923722416471, 14931708930408]), (2, [-1244833648188563, -17923721577069, 14931709009678]), (2, [-1244833683073289, -17923715049041, 14931708253163]), (2, [-1244834350000201, -17923588777824, 14931693402027]), (2, [-1244847313042115, -17921134350884, 14931404715437]), (2, [-1245099262672372, -17873429463471, 14925793656717]), (2, [-1249986192900035, -16947879203656, 14816904117014]), (2, [-1341163661550412, 406818415454, 12765865502414]), (3, [])]

def cert_Reduced2_4_31 : List (Nat × List Int) :=
  [(3, [1341163661550370, 406818415455, -12765865502414]), (2, [1249986192900022, -16947879203655, -14816904117013]), (2, [1245099262672382, -17873429463470, -14925793656717]), (2, [1244847313042236, -17921134350877, -14931404715439]), (2, [1244834350002051, -17923588777720, -14931693402051]), (2, [1244833683102497, -17923715047413, -14931708253544]), (2, [1244833648648967, -17923721551442, -14931709015693]), (2, [1244833644597286, -17923722012894, -14931709025129]), (2, [1244833608492214, -17923724034444, -14931708556716]), (2, [1244833041285072, -17923755602746, -14931701147758]), (2, [1244824108220718, -17924252765995, -14931584460068]), (2, [1244683425002845, -17932081706131, -14929746826301]), (2, [1242469508501614, -18055116105707, -14900836488897]), (2, [1208035277828792, -19928515971200, -14453130906005]), (2, [759176693502664, -38348676595797, -8874119260376]), (2, [-759176693502704, -38348676595797, 8874119260377]), (2, [-1208035277828795, -19928515971200, 14453130906005]), (2, [-1242469508501635, -18055116105710, 14900836488897]), (2, [-1244683425002834, -17932081706132, 14929746826301]), (2, [-1244824108220713, -17924252765996, 14931584460068]), (2, [-1244833041285092, -17923755602748, 14931701147758]), (2, [-1244833608492205, -17923724034446, 14931708556716]), (2, [-1244833644597279, -17923722012895, 14931709025129]), (2, [-1244833648648998, -17923721551444, 14931709015693]), (2, [-1244833683102534, -17923715047415, 14931708253545]), (2, [-1244834350002075, -17923588777723, 14931693402051]), (2, [-1244847313042257, -17921134350880, 14931404715439]), (2, [-1245099262672382, -17873429463471, 14925793656717]), (2, [-1249986192900052, -16947879203657, 14816904117014]), (2, [-1341163661550370, 406818415454, 12765865502414]), (3, [])]

def cert_Reduced2_4_32 : List (Nat × List Int) :=
  [(3, [1341163661550408, 406818415454, -12765865502414]), (2, [1249986192900030, -16947879203656, -14816904117014]), (2, [1245099262672411, -17873429463470, -14925793656718]), (2, [1244847313042248, -17921134350876, -14931404715439]), (2, [1244834350002540, -17923588777695, -14931693402057]), (2, [1244833683109887, -17923715047004, -14931708253641]), (2, [1244833648764960, -17923721544989, -14931709017208]), (2, [1244833646423537, -17923721911252, -14931709048985]), (2, [1244833637255070, -17923722433660, -14931708932430]), (2, [1244833494282392, -17923730391373, -14931707065019]), (2, [1244831242624821, -17923855706325, -14931677652838]), (2, [1244795780846933, -17925829271217, -14931214436874]), (2, [1244237391221478, -17956894749088, -14923921056918]), (2, [1235470777906442, -18441979298743, -14809545739539]), (2, [1104066682353662, -25148556882336, -13121699360776]), (2, [-4, -49386836336911, 0]), (2, [-1104066682353655, -25148556882336, 13121699360776]), (2, [-1235470777906451, -18441979298743, 14809545739539]), (2, [-1244237391221520, -17956894749090, 14923921056918]), (2, [-1244795780846928, -17925829271218, 14931214436874]), (2, [-1244831242624848, -17923855706326, 14931677652838]), (2, [-1244833494282349, -17923730391371, 14931707065019]), (2, [-1244833637255035, -17923722433659, 14931708932430]), (2, [-1244833646423542, -17923721911251, 14931709048985]), (2, [-1244833648764949, -17923721544989, 14931709017207]), (2, [-1244833683109890, -17923715047003, 14931708253641]), (2, [-1244834350002550, -17923588777695, 14931693402057]), (2, [-1244847313042285, -17921134350877, 14931404715439]), (2, [-1245099262672401, -17873429463471, 14925793656717]), (2, [-1249986192900029, -16947879203656, 14816904117014]), (2, [-1341163661550410, 406818415454, 12765865502414]), (3, [])]

def cert_Reduced2_4_33 : List (Nat × List Int) :=
  [(3, [1341163661550381, 406818415455, -12765865502414]), (2, [1249986192900047, -16947879203657, -14816904117014]), (2, [1245099262672408, -17873429463470, -14925793656718]), (2, [1244847313042273, -17921134350876, -14931404715439]), (2, [1244834350002640, -17923588777688, -14931693402059]), (2, [1244833683111744, -17923715046901, -14931708253665]), (2, [1244833648794176, -17923721543362, -14931709017589]), (2, [1244833646883977, -17923721885627, -14931709054999]), (2, [1244833644506464, -17923722030085, -14931709027151]), (2, [1244833608487528, -17923724035329, -14931708556820]), (2, [1244833041284841, -17923755602792, -14931701147764]), (2, [1244824108220691, -17924252765998, -14931584460068]), (2, [1244683425002826, -17932081706131, -14929746826301]), (2, [1242469508501600, -18055116105708, -14900836488897]), (2, [1208035277828822, -19928515971201, -14453130906005]), (2, [759176693502672, -38348676595797, -8874119260377]), (2, [-759176693502675, -38348676595796, 8874119260377]), (2, [-1208035277828785, -19928515971200, 14453130906005]), (2, [-1242469508501603, -18055116105708, 14900836488897]), (2, [-1244683425002826, -17932081706131, 14929746826301]), (2, [-1244824108220686, -17924252765997, 14931584460068]), (2, [-1244833041284809, -17923755602790, 14931701147764]), (2, [-1244833608487537, -17923724035329, 14931708556820]), (2, [-1244833644506497, -17923722030087, 14931709027151]), (2, [-1244833646884014, -17923721885630, 14931709054999]), (2, [-1244833648794163, -17923721543363, 14931709017589]), (2, [-1244833683111703, -17923715046899, 14931708253665]), (2, [-1244834350002642, -17923588777688, 14931693402059]), (2, [-1244847313042270, -17921134350875, 14931404715439]), (2, [-1245099262672366, -17873429463469, 14925793656717]), (2, [-1249986192900058, -16947879203656, 14816904117014]), (2, [-1341163661550388, 406818415455, 12765865502414]), (3, [])]

def cert_Reduced2_4_34 : List (Nat × List Int) :=
  [(3, [1341163661550416, 406818415454, -12765865502414]), (2, [1249986192900037, -16947879203655, -14816904117014]), (2, [1245099262672387, -17873429463470, -14925793656717]), (2, [1244847313042248, -17921134350875, -14931404715439]), (2, [1244834350002663, -17923588777686, -14931693402059]), (2, [1244833683112203, -17923715046874, -14931708253671]), (2, [1244833648801517, -17923721542951, -14931709017685]), (2, [1244833646999918, -17923721879173, -14931709056514]), (2, [1244833646332746, -17923721928445, -14931709051007]), (2, [1244833637250431, -17923722434545, -14931708932534]), (2, [1244833494282143, -17923730391418, -14931707065025]), (2, [1244831242624805, -17923855706327, -14931677652839]), (2, [1244795780846914, -17925829271216, -14931214436874]), (2, [1244237391221470, -17956894749087, -14923921056918]), (2, [1235470777906439, -18441979298742, -14809545739539]), (2, [1104066682353663, -25148556882336, -13121699360776]), (2, [-17, -49386836336913, 0]), (2, [-1104066682353667, -25148556882335, 13121699360776]), (2, [-1235470777906442, -18441979298743, 14809545739539]), (2, [-1244237391221515, -17956894749089, 14923921056918]), (2, [-1244795780846949, -17925829271218, 14931214436875]), (2, [-1244831242624850, -17923855706328, 14931677652839]), (2, [-1244833494282146, -17923730391419, 14931707065025]), (2, [-1244833637250468, -17923722434548, 14931708932534]), (2, [-1244833646332776, -17923721928448, 14931709051007]), (2, [-1244833646999960, -17923721879177, 14931709056514]), (2, [-1244833648801594, -17923721542956, 14931709017686]), (2, [-1244833683112222, -17923715046877, 14931708253671]), (2, [-1244834350002699, -17923588777689, 14931693402059]), (2, [-1244847313042286, -17921134350877, 14931404715439]), (2, [-1245099262672424, -17873429463471, 14925793656718]), (2, [-1249986192900071, -16947879203657, 14816904117014]), (2, [-1341163661550373, 406818415454, 12765865502414]), (3, [])]

def cert_Reduced2_4_35 : List (Nat × List Int) :=
  [(3, [1341163661550404, 406818415455, -12765865502414]), (2, [1249986192900030, -16947879203655, -14816904117014]), (2, [1245099262672404, -17873429463470, -14925793656718]), (2, [1244847313042241, -17921134350874, -14931404715439]), (2, [1244834350002705, -17923588777687, -14931693402059]), (2, [1244833683112309, -17923715046867, -14931708253673]), (2, [1244833648803389, -17923721542848, -14931709017710]), (2, [1244833647029170, -17923721877547, -14931709056896]), (2, [1244833646793184, -17923721902821, -14931709057021]), (2, [1244833644501785, -17923722030970, -14931709027255]), (2, [1244833608487289, -17923724035375, -14931708556826]), (2, [1244833041284807, -17923755602794, -14931701147764]), (2, [1244824108220715, -17924252765998, -14931584460068]), (2, [1244683425002811, -17932081706130, -14929746826300]), (2, [1242469508501607, -18055116105708, -14900836488897]), (2, [1208035277828800, -19928515971200, -14453130906005]), (2, [759176693502677, -38348676595797, -8874119260377]), (2, [-759176693502710, -38348676595799, 8874119260377]), (2, [-1208035277828798, -19928515971200, 14453130906005]), (2, [-1242469508501613, -18055116105709, 14900836488897]), (2, [-1244683425002856, -17932081706132, 14929746826301]), (2, [-1244824108220715, -17924252765998, 14931584460068]), (2, [-1244833041284856, -17923755602795, 14931701147764]), (2, [-1244833608487296, -17923724035374, 14931708556826]), (2, [-1244833644501793, -17923722030969, 14931709027255]), (2, [-1244833646793156, -17923721902819, 14931709057021]), (2, [-1244833647029220, -17923721877548, 14931709056896]), (2, [-1244833648803425, -17923721542851, 14931709017710]), (2, [-1244833683112349, -17923715046869, 14931708253673]), (2, [-1244834350002700, -17923588777687, 14931693402059]), (2, [-1244847313042294, -17921134350876, 14931404715439]), (2, [-1245099262672443, -17873429463471, 14925793656718]), (2, [-1249986192900031, -16947879203656, 14816904117013]), (2, [-1341163661550409, 406818415454, 12765865502414]), (3, [])]

def cert_Reduced2_4_36 : List (Nat × List Int) :=
  [(3, [1341163661550383, 406818415455, -12765865502414]), (2, [1249986192900026, -16947879203655, -14816904117014]), (2, [1245099262672387, -17873429463470, -14925793656717]), (2, [1244847313042258, -17921134350875, -14931404715439]), (2, [1244834350002699, -17923588777686, -14931693402059]), (2, [1244833683112337, -17923715046865, -14931708253673]), (2, [1244833648803857, -17923721542822, -14931709017716]), (2, [1244833647036507, -17923721877136, -14931709056992]), (2, [1244833646909122, -17923721896366, -14931709058536]), (2, [1244833646328094, -17923721929329, -14931709051111]), (2, [1244833637250170, -17923722434590, -14931708932539]), (2, [1244833494282115, -17923730391420, -14931707065025]), (2, [1244831242624806, -17923855706327, -14931677652839]), (2, [1244795780846894, -17925829271216, -14931214436874]), (2, [1244237391221478, -17956894749087, -14923921056918]), (2, [1235470777906422, -18441979298741, -14809545739539]), (2, [1104066682353641, -25148556882335, -13121699360776]), (2, [-17, -49386836336911, 0]), (2, [-1104066682353644, -25148556882334, 13121699360776]), (2, [-1235470777906429, -18441979298742, 14809545739539]), (2, [-1244237391221524, -17956894749089, 14923921056918]), (2, [-1244795780846944, -17925829271219, 14931214436875]), (2, [-1244831242624839, -17923855706329, 14931677652839]), (2, [-1244833494282157, -17923730391422, 14931707065025]), (2, [-1244833637250168, -17923722434591, 14931708932539]), (2, [-1244833646328102, -17923721929330, 14931709051111]), (2, [-1244833646909175, -17923721896368, 14931709058536]), (2, [-1244833647036599, -17923721877141, 14931709056992]), (2, [-1244833648803886, -17923721542825, 14931709017716]), (2, [-1244833683112378, -17923715046868, 14931708253673]), (2, [-1244834350002732, -17923588777689, 14931693402059]), (2, [-1244847313042303, -17921134350876, 14931404715439]), (2, [-1245099262672389, -17873429463471, 14925793656717]), (2, [-1249986192900071, -16947879203657, 14816904117014]), (2, [-1341163661550441, 406818415454, 12765865502415]), (3, [])]

def cert_Reduced2_4_37 : List (Nat × List Int) :=
  [(3, [1341163661550375, 406818415454, -12765865502414]), (2, [1249986192900056, -16947879203657, -14816904117014]), (2, [1245099262672424, -17873429463471, -14925793656718]), (2, [1244847313042251, -17921134350875, -14931404715439]), (2, [1244834350002707, -17923588777687, -14931693402059]), (2, [1244833683112335, -17923715046865, -14931708253673]), (2, [1244833648803996, -17923721542816, -14931709017717]), (2, [1244833647038396, -17923721877035, -14931709057016]), (2, [1244833646938369, -17923721894740, -14931709058918]), (2, [1244833646788498, -17923721903705, -14931709057125]), (2, [1244833644501540, -17923722031016, -14931709027260]), (2, [1244833608487289, -17923724035378, -14931708556826]), (2, [1244833041284821, -17923755602795, -14931701147764]), (2, [1244824108220692, -17924252765998, -14931584460068]), (2, [1244683425002849, -17932081706133, -14929746826301]), (2, [1242469508501661, -18055116105710, -14900836488897]), (2, [1208035277828813, -19928515971201, -14453130906005]), (2, [759176693502685, -38348676595796, -8874119260377]), (2, [-759176693502679, -38348676595798, 8874119260377]), (2, [-1208035277828769, -19928515971199, 14453130906005]), (2, [-1242469508501615, -18055116105708, 14900836488897]), (2, [-1244683425002854, -17932081706131, 14929746826301]), (2, [-1244824108220660, -17924252765995, 14931584460068]), (2, [-1244833041284827, -17923755602794, 14931701147764]), (2, [-1244833608487289, -17923724035378, 14931708556826]), (2, [-1244833644501534, -17923722031015, 14931709027260]), (2, [-1244833646788459, -17923721903702, 14931709057125]), (2, [-1244833646938374, -17923721894738, 14931709058918]), (2, [-1244833647038352, -17923721877033, 14931709057016]), (2, [-1244833648803951, -17923721542814, 14931709017717]), (2, [-1244833683112341, -17923715046864, 14931708253673]), (2, [-1244834350002672, -17923588777684, 14931693402059]), (2, [-1244847313042248, -17921134350873, 14931404715439]), (2, [-1245099262672379, -17873429463468, 14925793656717]), (2, [-1249986192900019, -16947879203654, 14816904117014]), (2, [-1341163661550371, 406818415456, 12765865502414]), (3, [])]

def cert_Reduced2_4_38 : List (Nat × List Int) :=
  [(3, [1341163661550380, 406818415454, -12765865502414]), (2, [1249986192900043, -16947879203657, -14816904117014]), (2, [1245099262672427, -17873429463471, -14925793656718]), (2, [1244847313042266, -17921134350875, -14931404715439]), (2, [1244834350002671, -17923588777686, -14931693402059]), (2, [1244833683112355, -17923715046865, -14931708253673]), (2, [1244833648803998, -17923721542814, -14931709017718]), (2, [1244833647038870, -17923721877008, -14931709057022]), (2, [1244833646945709, -17923721894328, -14931709059014]), (2, [1244833646904488, -17923721897252, -14931709058640]), (2, [1244833646327816, -17923721929375, -14931709051116]), (2, [1244833637250163, -17923722434593, -14931708932540]), (2, [1244833494282103, -17923730391419, -14931707065025]), (2, [1244831242624798, -17923855706327, -14931677652839]), (2, [1244795780846912, -17925829271217, -14931214436874]), (2, [1244237391221484, -17956894749088, -14923921056918]), (2, [1235470777906420, -18441979298742, -14809545739539]), (2, [1104066682353630, -25148556882334, -13121699360775]), (2, [-3, -49386836336912, 0]), (2, [-1104066682353679, -25148556882336, 13121699360776]), (2, [-1235470777906454, -18441979298744, 14809545739539]), (2, [-1244237391221475, -17956894749089, 14923921056918]), (2, [-1244795780846922, -17925829271217, 14931214436874]), (2, [-1244831242624801, -17923855706327, 14931677652839]), (2, [-1244833494282143, -17923730391422, 14931707065025]), (2, [-1244833637250158, -17923722434594, 14931708932540]), (2, [-1244833646327855, -17923721929376, 14931709051116]), (2, [-1244833646904484, -17923721897252, 14931709058640]), (2, [-1244833646945704, -17923721894330, 14931709059014]), (2, [-1244833647038866, -17923721877009, 14931709057022]), (2, [-1244833648804033, -17923721542816, 14931709017718]), (2, [-1244833683112347, -17923715046867, 14931708253673]), (2, [-1244834350002722, -17923588777688, 14931693402059]), (2, [-1244847313042302, -17921134350878, 14931404715439]), (2, [-1245099262672418, -17873429463473, 14925793656718]), (2, [-1249986192900036, -16947879203657, 14816904117013]), (2, [-1341163661550365, 406818415454, 12765865502414]), (3, [])]

def cert_Reduced2_4_39 : List (Nat × List Int) :=
  [(3, [1341163661550392, 406818415455, -12765865502414]), (2, [1249986192900059, -16947879203656, -14816904117014]), (2, [1245099262672398, -17873429463470, -14925793656717]), (2, [1244847313042283, -17921134350876, -14931404715439]), (2, [1244834350002693, -17923588777686, -14931693402059]), (2, [1244833683112352, -17923715046865, -14931708253673]), (2, [1244833648804013, -17923721542814, -14931709017718]), (2, [1244833647038968, -17923721877001, -14931709057024]), (2, [1244833646947601, -17923721894227, -14931709059038]), (2, [1244833646933713, -17923721895624, -14931709059022]), (2, [1244833646788251, -17923721903751, -14931709057131]), (2, [1244833644501571, -17923722031019, -14931709027261]), (2, [1244833608487276, -17923724035377, -14931708556826]), (2, [1244833041284816, -17923755602794, -14931701147764]), (2, [1244824108220673, -17924252765997, -14931584460068]), (2, [1244683425002807, -17932081706131, -14929746826300]), (2, [1242469508501651, -18055116105709, -14900836488897]), (2, [1208035277828820, -19928515971201, -14453130906005]), (2, [759176693502665, -38348676595796, -8874119260377]), (2, [-759176693502700, -38348676595798, 8874119260377]), (2, [-1208035277828824, -19928515971201, 14453130906005]), (2, [-1242469508501647, -18055116105710, 14900836488897]), (2, [-1244683425002855, -17932081706133, 14929746826301]), (2, [-1244824108220717, -17924252765999, 14931584460068]), (2, [-1244833041284818, -17923755602795, 14931701147764]), (2, [-1244833608487308, -17923724035379, 14931708556826]), (2, [-1244833644501567, -17923722031019, 14931709027261]), (2, [-1244833646788252, -17923721903751, 14931709057131]), (2, [-1244833646933663, -17923721895623, 14931709059022]), (2, [-1244833646947604, -17923721894227, 14931709059038]), (2, [-1244833647039006, -17923721877004, 14931709057024]), (2, [-1244833648804013, -17923721542815, 14931709017718]), (2, [-1244833683112342, -17923715046865, 14931708253673]), (2, [-1244834350002686, -17923588777687, 14931693402059]), (2, [-1244847313042294, -17921134350876, 14931404715439]), (2, [-1245099262672449, -17873429463472, 14925793656718]), (2, [-1249986192900052, -16947879203658, 14816904117014]), (2, [-1341163661550387, 406818415454, 12765865502414]), (3, [])]

def cert_Reduced2_4_40 : List (Nat × List Int) :=
  [(3, [1341163661550392, 406818415455, -12765865502414]), (2, [1249986192900037, -16947879203656, -14816904117014]), (2, [1245099262672414, -17873429463471, -14925793656718]), (2, [1244847313042266, -17921134350875, -14931404715439]), (2, [1244834350002673, -17923588777686, -14931693402059]), (2, [1244833683112385, -17923715046867, -14931708253673]), (2, [1244833648804019, -17923721542814, -14931709017718]), (2, [1244833647039024, -17923721877001, -14931709057024]), (2, [1244833646948063, -17923721894201, -14931709059044]), (2, [1244833646941053, -17923721895214, -14931709059118]), (2, [1244833646904238, -17923721897298, -14931709058645]), (2, [1244833646327856, -17923721929379, -14931709051117]), (2, [1244833637250171, -17923722434594, -14931708932540]), (2, [1244833494282162, -17923730391421, -14931707065025]), (2, [1244831242624807, -17923855706327, -14931677652839]), (2, [1244795780846921, -17925829271218, -14931214436874]), (2, [1244237391221525, -17956894749089, -14923921056918]), (2, [1235470777906458, -18441979298744, -14809545739539]), (2, [1104066682353680, -25148556882336, -13121699360776]), (2, [14, -49386836336912, 0]), (2, [-1104066682353670, -25148556882336, 13121699360776]), (2, [-1235470777906389, -18441979298741, 14809545739539]), (2, [-1244237391221417, -17956894749085, 14923921056918]), (2, [-1244795780846896, -17925829271214, 14931214436874]), (2, [-1244831242624825, -17923855706326, 14931677652839]), (2, [-1244833494282101, -17923730391419, 14931707065025]), (2, [-1244833637250112, -17923722434590, 14931708932540]), (2, [-1244833646327768, -17923721929374, 14931709051116]), (2, [-1244833646904214, -17923721897295, 14931709058645]), (2, [-1244833646941097, -17923721895214, 14931709059118]), (2, [-1244833646948003, -17923721894198, 14931709059044]), (2, [-1244833647038985, -17923721876998, 14931709057024]), (2, [-1244833648803965, -17923721542811, 14931709017718]), (2, [-1244833683112346, -17923715046864, 14931708253673]), (2, [-1244834350002683, -17923588777684, 14931693402059]), (2, [-1244847313042253, -17921134350875, 14931404715439]), (2, [-1245099262672376, -17873429463468, 14925793656717]), (2, [-1249986192900033, -16947879203655, 14816904117014]), (2, [-1341163661550336, 406818415456, 12765865502414]), (3, [])]

def cert_Reduced2_4_41 : List (Nat × List Int) :=
  [(3, [1341163661550416, 406818415454, -12765865502414]), (2, [1249986192900042, -16947879203657, -14816904117014]), (2, [1245099262672419, -17873429463471, -14925793656718]), (2, [1244847313042284, -17921134350876, -14931404715439]), (2, [1244834350002702, -17923588777686, -14931693402059]), (2, [1244833683112342, -17923715046865, -14931708253673]), (2, [1244833648804014, -17923721542814, -14931709017718]), (2, [1244833647039028, -17923721877000, -14931709057024]), (2, [1244833646948196, -17923721894194, -14931709059046]), (2, [1244833646942906, -17923721895111, -14931709059142]), (2, [1244833646933483, -17923721895670, -14931709059027]), (2, [1244833646788272, -17923721903753, -14931709057131]), (2, [1244833644501546, -17923722031018, -14931709027261]), (2, [1244833608487317, -17923724035378, -14931708556826]), (2, [1244833041284795, -17923755602793, -14931701147764]), (2, [1244824108220686, -17924252765997, -14931584460068]), (2, [1244683425002872, -17932081706132, -14929746826301]), (2, [1242469508501608, -18055116105707, -14900836488897]), (2, [1208035277828802, -19928515971199, -14453130906005]), (2, [759176693502671, -38348676595796, -8874119260377]), (2, [-759176693502667, -38348676595795, 8874119260377]), (2, [-1208035277828748, -19928515971197, 14453130906005]), (2, [-1242469508501609, -18055116105705, 14900836488897]), (2, [-1244683425002785, -17932081706128, 14929746826300]), (2, [-1244824108220689, -17924252765996, 14931584460068]), (2, [-1244833041284804, -17923755602793, 14931701147764]), (2, [-1244833608487317, -17923724035377, 14931708556826]), (2, [-1244833644501541, -17923722031018, 14931709027261]), (2, [-1244833646788217, -17923721903750, 14931709057131]), (2, [-1244833646933453, -17923721895668, 14931709059027]), (2, [-1244833646942911, -17923721895110, 14931709059142]), (2, [-1244833646948189, -17923721894193, 14931709059046]), (2, [-1244833647038984, -17923721876997, 14931709057024]), (2, [-1244833648804027, -17923721542813, 14931709017718]), (2, [-1244833683112340, -17923715046864, 14931708253673]), (2, [-1244834350002716, -17923588777686, 14931693402059]), (2, [-1244847313042287, -17921134350875, 14931404715439]), (2, [-1245099262672370, -17873429463469, 14925793656717]), (2, [-1249986192900005, -16947879203654, 14816904117013]), (2, [-1341163661550413, 406818415455, 12765865502414]), (3, [])]

def cert_Reduced2_4_42 : List (Nat × List Int) :=
  [(3, [1341163661550387, 406818415455, -12765865502414]), (2, [1249986192900026, -16947879203655, -14816904117014]), (2, [1245099262672371, -17873429463469, -14925793656717]), (2, [1244847313042285, -17921134350876, -14931404715439]), (2, [1244834350002688, -17923588777686, -14931693402059]), (2, [1244833683112346, -17923715046865, -14931708253673]), (2, [1244833648804025, -17923721542814, -14931709017718]), (2, [1244833647039012, -17923721876999, -14931709057024]), (2, [1244833646948172, -17923721894191, -14931709059046]), (2, [1244833646943394, -17923721895084, -14931709059148]), (2, [1244833646940799, -17923721895259, -14931709059123]), (2, [1244833646904223, -17923721897300, -14931709058646]), (2, [1244833646327850, -17923721929378, -14931709051117]), (2, [1244833637250165, -17923722434593, -14931708932540]), (2, [1244833494282116, -17923730391420, -14931707065025]), (2, [1244831242624806, -17923855706328, -14931677652839]), (2, [1244795780846934, -17925829271217, -14931214436875]), (2, [1244237391221500, -17956894749088, -14923921056918]), (2, [1235470777906405, -18441979298741, -14809545739539]), (2, [1104066682353640, -25148556882335, -13121699360776]), (2, [-9, -49386836336911, 0]), (2, [-1104066682353682, -25148556882337, 13121699360776]), (2, [-1235470777906507, -18441979298746, 14809545739540]), (2, [-1244237391221539, -17956894749092, 14923921056918]), (2, [-1244795780846924, -17925829271219, 14931214436874]), (2, [-1244831242624861, -17923855706330, 14931677652839]), (2, [-1244833494282166, -17923730391423, 14931707065025]), (2, [-1244833637250159, -17923722434595, 14931708932540]), (2, [-1244833646327892, -17923721929381, 14931709051117]), (2, [-1244833646904278, -17923721897303, 14931709058646]), (2, [-1244833646940894, -17923721895265, 14931709059124]), (2, [-1244833646943412, -17923721895089, 14931709059148]), (2, [-1244833646948208, -17923721894193, 14931709059046]), (2, [-1244833647039015, -17923721877000, 14931709057024]), (2, [-1244833648804075, -17923721542816, 14931709017718]), (2, [-1244833683112389, -17923715046869, 14931708253673]), (2, [-1244834350002732, -17923588777690, 14931693402059]), (2, [-1244847313042275, -17921134350878, 14931404715439]), (2, [-1245099262672464, -17873429463475, 14925793656718]), (2, [-1249986192900061, -16947879203659, 14816904117014]), (2, [-1341163661550372, 406818415453, 12765865502414]), (3, [])]

def cert_Reduced2_4_43 : List (Nat × List Int) :=
  [(3, [1341163661550423, 406818415454, -12765865502415]), (2, [1249986192900024, -16947879203656, -14816904117013]), (2, [1245099262672414, -17873429463471, -14925793656718]), (2, [1244847313042268, -17921134350875, -14931404715439]), (2, [1244834350002695, -17923588777686, -14931693402059]), (2, [1244833683112341, -17923715046864, -14931708253673]), (2, [1244833648804005, -17923721542813, -14931709017718]), (2, [1244833647039000, -17923721876998, -14931709057024]), (2, [1244833646948194, -17923721894191, -14931709059046]), (2, [1244833646943522, -17923721895079, -14931709059150]), (2, [1244833646942714, -17923721895158, -14931709059148]), (2, [1244833646933432, -17923721895671, -14931709059027]), (2, [1244833646788261, -17923721903753, -14931709057131]), (2, [1244833644501537, -17923722031019, -14931709027261]), (2, [1244833608487320, -17923724035378, -14931708556826]), (2, [1244833041284809, -17923755602794, -14931701147764]), (2, [1244824108220701, -17924252765997, -14931584460068]), (2, [1244683425002835, -17932081706131, -14929746826301]), (2, [1242469508501610, -18055116105708, -14900836488897]), (2, [1208035277828809, -19928515971200, -14453130906005]), (2, [759176693502683, -38348676595796, -8874119260377]), (2, [-759176693502678, -38348676595798, 8874119260377]), (2, [-1208035277828859, -19928515971202, 14453130906005]), (2, [-1242469508501656, -18055116105711, 14900836488897]), (2, [-1244683425002835, -17932081706132, 14929746826301]), (2, [-1244824108220686, -17924252765997, 14931584460068]), (2, [-1244833041284815, -17923755602793, 14931701147764]), (2, [-1244833608487318, -17923724035378, 14931708556826]), (2, [-1244833644501552, -17923722031019, 14931709027261]), (2, [-1244833646788253, -17923721903754, 14931709057131]), (2, [-1244833646933467, -17923721895673, 14931709059028]), (2, [-1244833646942654, -17923721895156, 14931709059147]), (2, [-1244833646943467, -17923721895077, 14931709059150]), (2, [-1244833646948200, -17923721894191, 14931709059046]), (2, [-1244833647039059, -17923721877001, 14931709057025]), (2, [-1244833648804050, -17923721542817, 14931709017718]), (2, [-1244833683112377, -17923715046867, 14931708253673]), (2, [-1244834350002691, -17923588777686, 14931693402059]), (2, [-1244847313042306, -17921134350877, 14931404715439]), (2, [-1245099262672360, -17873429463470, 14925793656717]), (2, [-1249986192900029, -16947879203656, 14816904117014]), (2, [-1341163661550408, 406818415454, 12765865502414]), (3, [])]

def cert_Reduced2_4_44 : List (Nat × List Int) :=
  [(3, [1341163661550364, 406818415455, -12765865502414]), (2, [1249986192900045, -16947879203656, -14816904117014]), (2, [1245099262672394, -17873429463470, -14925793656717]), (2, [1244847313042261, -17921134350875, -14931404715439]), (2, [1244834350002699, -17923588777687, -14931693402059]), (2, [1244833683112374, -17923715046866, -14931708253673]), (2, [1244833648804017, -17923721542814, -14931709017718]), (2, [1244833647039000, -17923721876999, -14931709057024]), (2, [1244833646948195, -17923721894192, -14931709059046]), (2, [1244833646943569, -17923721895078, -14931709059150]), (2, [1244833646943155, -17923721895131, -14931709059154]), (2, [1244833646940822, -17923721895262, -14931709059124]), (2, [1244833646904202, -17923721897299, -14931709058646]), (2, [1244833646327854, -17923721929378, -14931709051117]), (2, [1244833637250124, -17923722434592, -14931708932540]), (2, [1244833494282107, -17923730391419, -14931707065025]), (2, [1244831242624812, -17923855706327, -14931677652839]), (2, [1244795780846934, -17925829271217, -14931214436874]), (2, [1244237391221506, -17956894749089, -14923921056918]), (2, [1235470777906431, -18441979298743, -14809545739539]), (2, [1104066682353644, -25148556882335, -13121699360776]), (2, [6, -49386836336910, 0]), (2, [-1104066682353655, -25148556882336, 13121699360776]), (2, [-1235470777906476, -18441979298744, 14809545739539]), (2, [-1244237391221502, -17956894749089, 14923921056918]), (2, [-1244795780846948, -17925829271217, 14931214436875]), (2, [-1244831242624814, -17923855706327, 14931677652839]), (2, [-1244833494282160, -17923730391421, 14931707065025]), (2, [-1244833637250178, -17923722434593, 14931708932540]), (2, [-1244833646327799, -17923721929376, 14931709051116]), (2, [-1244833646904209, -17923721897298, 14931709058646]), (2, [-1244833646940833, -17923721895261, 14931709059124]), (2, [-1244833646943171, -17923721895130, 14931709059154]), (2, [-1244833646943565, -17923721895078, 14931709059150]), (2, [-1244833646948190, -17923721894192, 14931709059046]), (2, [-1244833647039014, -17923721876999, 14931709057024]), (2, [-1244833648804021, -17923721542813, 14931709017718]), (2, [-1244833683112391, -17923715046866, 14931708253673]), (2, [-1244834350002740, -17923588777687, 14931693402059]), (2, [-1244847313042260, -17921134350874, 14931404715439]), (2, [-1245099262672402, -17873429463469, 14925793656718]), (2, [-1249986192900009, -16947879203654, 14816904117013]), (2, [-1341163661550392, 406818415456, 12765865502414]), (3, [])]

def cert_Reduced2_4_45 : List (Nat × List Int) :=
  [(3, [1341163661550391, 406818415455, -12765865502414]), (2, [1249986192900047, -16947879203657, -14816904117014]), (2, [1245099262672396, -17873429463470, -14925793656717]), (2, [1244847313042269, -17921134350876, -14931404715439]), (2, [1244834350002712, -17923588777687, -14931693402059]), (2, [1244833683112340, -17923715046865, -14931708253673]), (2, [1244833648804027, -17923721542814, -14931709017718]), (2, [1244833647038999, -17923721876999, -14931709057024]), (2, [1244833646948227, -17923721894192, -14931709059046]), (2, [1244833646943560, -17923721895078, -14931709059150]), (2, [1244833646943297, -17923721895125, -14931709059156]), (2, [1244833646942635, -17923721895158, -14931709059148]), (2, [1244833646933465, -17923721895673, -14931709059028]), (2, [1244833646788239, -17923721903753, -14931709057131]), (2, [1244833644501575, -17923722031020, -14931709027261]), (2, [1244833608487267, -17923724035377, -14931708556826]), (2, [1244833041284814, -17923755602793, -14931701147764]), (2, [1244824108220677, -17924252765997, -14931584460068]), (2, [1244683425002840, -17932081706132, -14929746826301]), (2, [1242469508501657, -18055116105709, -14900836488897]), (2, [1208035277828789, -19928515971200, -14453130906005]), (2, [759176693502702, -38348676595796, -8874119260377]), (2, [-759176693502650, -38348676595796, 8874119260376]), (2, [-1208035277828791, -19928515971200, 14453130906005]), (2, [-1242469508501601, -18055116105707, 14900836488897]), (2, [-1244683425002854, -17932081706131, 14929746826301]), (2, [-1244824108220678, -17924252765997, 14931584460068]), (2, [-1244833041284808, -17923755602793, 14931701147764]), (2, [-1244833608487265, -17923724035375, 14931708556826]), (2, [-1244833644501539, -17923722031016, 14931709027261]), (2, [-1244833646788251, -17923721903751, 14931709057131]), (2, [-1244833646933477, -17923721895672, 14931709059028]), (2, [-1244833646942633, -17923721895157, 14931709059148]), (2, [-1244833646943237, -17923721895122, 14931709059155]), (2, [-1244833646943518, -17923721895074, 14931709059150]), (2, [-1244833646948178, -17923721894189, 14931709059046]), (2, [-1244833647038952, -17923721876996, 14931709057024]), (2, [-1244833648804031, -17923721542813, 14931709017718]), (2, [-1244833683112327, -17923715046864, 14931708253673]), (2, [-1244834350002663, -17923588777684, 14931693402059]), (2, [-1244847313042270, -17921134350874, 14931404715439]), (2, [-1245099262672337, -17873429463468, 14925793656717]), (2, [-1249986192900004, -16947879203653, 14816904117013]), (2, [-1341163661550334, 406818415457, 12765865502414]), (3, [])]

def cert_Reduced2_4 : List (Nat × List (Nat × List Int)) :=
  [(1, cert_Reduced2_4_1), (2, cert_Reduced2_4_2), (3, cert_Reduced2_4_3), (4, cert_Reduced2_4_4), (5, cert_Reduced2_4_5), (6, cert_Reduced2_4_6), (7, cert_Reduced2_4_7), (8, cert_Reduced2_4_8), (9, cert_Reduced2_4_9), (10, cert_Reduced2_4_10), (11, cert_Reduced2_4_11), (12, cert_Reduced2_4_12), (13, cert_Reduced2_4_13), (14, cert_Reduced2_4_14), (15, cert_Reduced2_4_15), (16, cert_Reduced2_4_16), (17, cert_Reduced2_4_17), (18, cert_Reduced2_4_18), (19, cert_Reduced2_4_19), (20, cert_Reduced2_4_20), (21, cert_Reduced2_4_21), (22, cert_Reduced2_4_22), (23, cert_Reduced2_4_23), (24, cert_Reduced2_4_24), (25, cert_Reduced2_4_25), (26, cert_Reduced2_4_26), (27, cert_Reduced2_4_27), (28, cert_Reduced2_4_28), (29, cert_Reduced2_4_29), (30, cert_Reduced2_4_30), (31, cert_Reduced2_4_31), (32, cert_Reduced2_4_32), (33, cert_Reduced2_4_33), (34, cert_Reduced2_4_34), (35, cert_Reduced2_4_35), (36, cert_Reduced2_4_36), (37, cert_Reduced2_4_37), (38, cert_Reduced2_4_38), (39, cert_Reduced2_4_39), (40, cert_Reduced2_4_40), (41, cert_Reduced2_4_41), (42, cert_Reduced2_4_42), (43, cert_Reduced2_4_43), (44, cert_Reduced2_4_44), (45, cert_Reduced2_4_45)]

theorem cert_Reduced2_4_1_ok : tableOK 4 .ggqReduced2 6 2 lag6 Tables.S_6_2_precomputed [(1, cert_Reduced2_4_1)] = true := by decide +kernel
theorem cert_Reduced2_4_2_ok : tableOK 4 .ggqReduced2 6 2 lag6 Tables.S_6_2_precomputed [(2, cert_Reduced2_4_2)] = true := by decide +kernel
theorem cert_Reduced2_4_3_ok : tableOK 4 .ggqReduced2 6 2 lag6 Tables.S_6_2_precomputed [(3, cert_Reduced2_4_3)] = true := by decide +kernel
theorem cert_Reduced2_4_4_ok : tableOK 4 .ggqReduced2 6 2 lag6 Tables.S_6_2_precomputed [(4, cert_Reduced2_4_4)] = true := by decide +kernel
theorem cert_Reduced2_4_5_ok : tableOK 4 .ggqReduced2 6 2 lag6 Tables.S_6_2_precomputed [(5, cert_Reduced2_4_5)] = true := by decide +kernel
theorem cert_Reduced2_4_6_ok : tableOK 4 .ggqReduced2 6 2 lag6 Tables.S_6_2_precomputed [(6, cert_Reduced2_4_6)] = true := by decide +kernel
theorem cert_Reduced2_4_7_ok : tableOK 4 .ggqReduced2 6 2 lag6 Tables.S_6_2_precomputed [(7, cert_Reduced2_4_7)] = true := by decide +kernel
theorem cert_Reduced2_4_8_ok : tableOK 4 .ggqReduced2 6 2 lag6 Tables.S_6_2_precomputed [(8, cert_Reduced2_4_8)] = true := by decide +kernel
theorem cert_Reduced2_4_9_ok : tableOK 4 .ggqReduced2 6 2 lag6 Tables.S_6_2_precomputed [(9, cert_Reduced2_4_9)] = true := by decide +kernel
theorem cert_Reduced2_4_10_ok : tableOK 4 .ggqReduced2 6 2 lag6 Tables.S_6_2_precomputed [(10, cert_Reduced2_4_10)] = true := by decide +kernel
theorem cert_Reduced2_4_11_ok : tableOK 4 .ggqReduced2 6 2 lag6 Tables.S_6_2_precomputed [(11, cert_Reduced2_4_11)] = true := by decide +kernel
theorem cert_Reduced2_4_12_ok : tableOK 4 .ggqReduced2 6 2 lag6 Tables.S_6_2_precomputed [(12, cert_Reduced2_4_12)] = true := by decide +kernel
theorem cert_Reduced2_4_13_ok : tableOK 4 .ggqReduced2 6 2 lag6 Tables.S_6_2_precomputed [(13, cert_Reduced2_4_13)] = true := by decide +kernel
theorem cert_Reduced2_4_14_ok : tableOK 4 .ggqReduced2 6 2 lag6 Tables.S_6_2_precomputed [(14, cert_Reduced2_4_14)] = true := by decide +kernel
theorem cert_Reduced2_4_15_ok : tableOK 4 .ggqReduced2 6 2 lag6 Tables.S_6_2_precomputed [(15, cert_Reduced2_4_15)] = true := by decide +kernel
theorem cert_Reduced2_4_16_ok : tableOK 4 .ggqReduced2 6 2 lag6 Tables.S_6_2_precomputed [(16, cert_Reduced2_4_16)] = true := by decide +kernel
theorem cert_Reduced2_4_17_ok : tableOK 4 .ggqReduced2 6 2 lag6 Tables.S_6_2_precomputed [(17, cert_Reduced2_4_17)] = true := by decide +kernel
theorem cert_Reduced2_4_18_ok : tableOK 4 .ggqReduced2 6 2 lag6 Tables.S_6_2_precomputed [(18, cert_Reduced2_4_18)] = true := by decide +kernel
theorem cert_Reduced2_4_19_ok : tableOK 4 .ggqReduced2 6 2 lag6 Tables.S_6_2_precomputed [(19, cert_Reduced2_4_19)] = true := by decide +kernel
theorem cert_Reduced2_4_20_ok : tableOK 4 .ggqReduced2 6 2 lag6 Tables.S_6_2_precomputed [(20, cert_Reduced2_4_20)] = true := by decide +kernel
theorem cert_Reduced2_4_21_ok : tableOK 4 .ggqReduced2 6 2 lag6 Tables.S_6_2_precomputed [(21, cert_Reduced2_4_21)] = true := by decide +kernel
theorem cert_Reduced2_4_22_ok : tableOK 4 .ggqReduced2 6 2 lag6 Tables.S_6_2_precomputed [(22, cert_Reduced2_4_22)] = true := by decide +kernel
theorem cert_Reduced2_4_23_ok : tableOK 4 .ggqReduced2 6 2 lag6 Tables.S_6_2_precomputed [(23, cert_Reduced2_4_23)] = true := by decide +kernel
theorem cert_Reduced2_4_24_ok : tableOK 4 .ggqReduced2 6 2 lag6 Tables.S_6_2_precomputed [(24, cert_Reduced2_4_24)] = true := by decide +kernel
theorem cert_Reduced2_4_25_ok : tableOK 4 .ggqReduced2 6 2 lag6 Tables.S_6_2_precomputed [(25, cert_Reduced2_4_25)] = true := by decide +kernel
theorem cert_Reduced2_4_26_ok : tableOK 4 .ggqReduced2 6 2 lag6 Tables.S_6_2_precomputed [(26, cert_Reduced2_4_26)] = true := by decide +kernel
theorem cert_Reduced2_4_27_ok : tableOK 4 .ggqReduced2 6 2 lag6 Tables.S_6_2_precomputed [(27, cert_Reduced2_4_27)] = true := by decide +kernel
theorem cert_Reduced2_4_28_ok : tableOK 4 .ggqReduced2 6 2 lag6 Tables.S_6_2_precomputed [(28, cert_Reduced2_4_28)] = true := by decide +kernel
theorem cert_Reduced2_4_29_ok : tableOK 4 .ggqReduced2 6 2 lag6 Tables.S_6_2_precomputed [(29, cert_Reduced2_4_29)] = true := by decide +kernel
theorem cert_Reduced2_4_30_ok : tableOK 4 .ggqReduced2 6 2 lag6 Tables.S_6_2_precomputed [(30, cert_Reduced2_4_30)] = true := by decide +kernel
theorem cert_Reduced2_4_31_ok : tableOK 4 .ggqReduced2 6 2 lag6 Tables.S_6_2_precomputed [(31, cert_Reduced2_4_31)] = true := by decide +kernel
theorem cert_Reduced2_4_32_ok : tableOK 4 .ggqReduced2 6 2 lag6 Tables.S_6_2_precomputed [(32, cert_Reduced2_4_32)] = true := by decide +kernel
theorem cert_Reduced2_4_33_ok : tableOK 4 .ggqReduced2 6 2 lag6 Tables.S_6_2_precomputed [(33, cert_Reduced2_4_33)] = true := by decide +kernel
theorem cert_Reduced2_4_34_ok : tableOK 4 .ggqReduced2 6 2 lag6 Tables.S_6_2_precomputed [(34, cert_Reduced2_4_34)] = true := by decide +kernel
theorem cert_Reduced2_4_35_ok : tableOK 4 .ggqReduced2 6 2 lag6 Tables.S_6_2_precomputed [(35, cert_Reduced2_4_35)] = true := by decide +kernel
theorem cert_Reduced2_4_36_ok : tableOK 4 .ggqReduced2 6 2 lag6 Tables.S_6_2_precomputed [(36, cert_Reduced2_4_36)] = true := by decide +kernel
theorem cert_Reduced2_4_37_ok : tableOK 4 .ggqReduced2 6 2 lag6 Tables.S_6_2_precomputed [(37, cert_Reduced2_4_37)] = true := by decide +kernel
theorem cert_Reduced2_4_38_ok : tableOK 4 .ggqReduced2 6 2 lag6 Tables.S_6_2_precomputed [(38, cert_Reduced2_4_38)] = true := by decide +kernel
theorem cert_Reduced2_4_39_ok : tableOK 4 .ggqReduced2 6 2 lag6 Tables.S_6_2_precomputed [(39, cert_Reduced2_4_39)] = true := by decide +kernel
theorem cert_Reduced2_4_40_ok : tableOK 4 .ggqReduced2 6 2 lag6 Tables.S_6_2_precomputed [(40, cert_Reduced2_4_40)] = true := by decide +kernel
theorem cert_Reduced2_4_41_ok : tableOK 4 .ggqReduced2 6 2 lag6 Tables.S_6_2_precomputed [(41, cert_Reduced2_4_41)] = true := by decide +kernel
theorem cert_Reduced2_4_42_ok : tableOK 4 .ggqReduced2 6 2 lag6 Tables.S_6_2_precomputed [(42, cert_Reduced2_4_42)] = true := by decide +kernel
theorem cert_Reduced2_4_43_ok : tableOK 4 .ggqReduced2 6 2 lag6 Tables.S_6_2_precomputed [(43, cert_Reduced2_4_43)] = true := by decide +kernel
theorem cert_Reduced2_4_44_ok : tableOK 4 .ggqReduced2 6 2 lag6 Tables.S_6_2_precomputed [(44, cert_Reduced2_4_44)] = true := by decide +kernel
theorem cert_Reduced2_4_45_ok : tableOK 4 .ggqReduced2 6 2 lag6 Tables.S_6_2_precomputed [(45, cert_Reduced2_4_45)] = true := by decide +kernel

theorem cert_Reduced2_4_ok : tableOK 4 .ggqReduced2 6 2 lag6 Tables.S_6_2_precomputed cert_Reduced2_4 = true :=
  tableOK_cons cert_Reduced2_4_1_ok (tableOK_cons cert_Reduced2_4_2_ok (tableOK_cons cert_Reduced2_4_3_ok (tableOK_cons cert_Reduced2_4_4_ok (tableOK_cons cert_Reduced2_4_5_ok (tableOK_cons cert_Reduced2_4_6_ok (tableOK_cons cert_Reduced2_4_7_ok (tableOK_cons cert_Reduced2_4_8_ok (tableOK_cons cert_Reduced2_4_9_ok (tableOK_cons cert_Reduced2_4_10_ok (tableOK_cons cert_Reduced2_4_11_ok (tableOK_cons cert_Reduced2_4_12_ok (tableOK_cons cert_Reduced2_4_13_ok (tableOK_cons cert_Reduced2_4_14_ok (tableOK_cons cert_Reduced2_4_15_ok (tableOK_cons cert_Reduced2_4_16_ok (tableOK_cons cert_Reduced2_4_17_ok (tableOK_cons cert_Reduced2_4_18_ok (tableOK_cons cert_Reduced2_4_19_ok (tableOK_cons cert_Reduced2_4_20_ok (tableOK_cons cert_Reduced2_4_21_ok (tableOK_cons cert_Reduced2_4_22_ok (tableOK_cons cert_Reduced2_4_23_ok (tableOK_cons cert_Reduced2_4_24_ok (tableOK_cons cert_Reduced2_4_25_ok (tableOK_cons cert_Reduced2_4_26_ok (tableOK_cons cert_Reduced2_4_27_ok (tableOK_cons cert_Reduced2_4_28_ok (tableOK_cons cert_Reduced2_4_29_ok (tableOK_cons cert_Reduced2_4_30_ok (tableOK_cons cert_Reduced2_4_31_ok (tableOK_cons cert_Reduced2_4_32_ok (tableOK_cons cert_Reduced2_4_33_ok (tableOK_cons cert_Reduced2_4_34_ok (tableOK_cons cert_Reduced2_4_35_ok (tableOK_cons cert_Reduced2_4_36_ok (tableOK_cons cert_Reduced2_4_37_ok (tableOK_cons cert_Reduced2_4_38_ok (tableOK_cons cert_Reduced2_4_39_ok (tableOK_cons cert_Reduced2_4_40_ok (tableOK_cons cert_Reduced2_4_41_ok (tableOK_cons cert_Reduced2_4_42_ok (tableOK_cons cert_Reduced2_4_43_ok (tableOK_cons cert_Reduced2_4_44_ok (tableOK_cons cert_Reduced2_4_45_ok (rfl)))))))))))))))))))))))))))))))))))))))))))))

def class_Reduced2_4_0 : Cert where
  spA := [(3, [2682327323100790, 813636830909, -25531731004829]), (2, [2499972385800067, -33895758407312, -29633808234027]), (2, [2490198525344806, -35746858926940, -29851587313435]), (2, [2489694626084527, -35842268701750, -29862809430878]), (2, [2489668700005364, -35847177555372, -29863386804118]), (2, [2489667366224717, -35847430093731, -29863416507346]), (2, [2489667297608051, -35847443085628, -29863418035436]), (2, [2489667294078048, -35847443753999, -29863418114049]), (2, [2489667293896395, -35847443788381, -29863418118093]), (2, [2489667293887107, -35847443790148, -29863418118301]), (2, [2489667293886602, -35847443790248, -29863418118312])]
  spP := [(2, [2489667293886602, -35847443790248, -29863418118312])]
  spC := [(2, [2489667293886316, -35847443790269, -29863418118308]), (2, [2489667293881682, -35847443790527, -29863418118248]), (2, [2489667293808455, -35847443794600, -29863418117291]), (2, [2489667292655672, -35847443858757, -29863418102233]), (2, [2489667274500287, -35847444869185, -29863417865079]), (2, [2489666988564209, -35847460782839, -29863414130050]), (2, [2489662485249677, -35847711412655, -29863355305677]), (2, [2489591561693822, -35851658542432, -29862428873749]), (2, [2488474782442939, -35913789498173, -29847842113836]), (2, [2470941555812809, -36883958597483, -29619091479078]), (2, [2208133364707296, -50297113764669, -26243398721551]), (2, [0, -98773672673821, 0]), (2, [-2208133364707296, -50297113764669, 26243398721551]), (2, [-2470941555812809, -36883958597483, 29619091479078]), (2, [-2488474782442939, -35913789498173, 29847842113836]), (2, [-2489591561693822, -35851658542432, 29862428873749]), (2, [-2489662485249677, -35847711412655, 29863355305677]), (2, [-2489666988564209, -35847460782839, 29863414130050]), (2, [-2489667274500287, -35847444869185, 29863417865079]), (2, [-2489667292655672, -35847443858757, 29863418102233]), (2, [-2489667293808455, -35847443794600, 29863418117291]), (2, [-2489667293881682, -35847443790527, 29863418118248]), (2, [-2489667293886316, -35847443790269, 29863418118308]), (2, [-2489667293886602, -35847443790248, 29863418118312])]
  spP' := [(2, [-2489667293886602, -35847443790248, 29863418118312])]
  spA' := [(2, [-2489667293887107, -35847443790148, 29863418118301]), (2, [-2489667293896395, -35847443788381, 29863418118093]), (2, [-2489667294078048, -35847443753999, 29863418114049]), (2, [-2489667297608051, -35847443085628, 29863418035436]), (2, [-2489667366224717, -35847430093731, 29863416507346]), (2, [-2489668700005364, -35847177555372, 29863386804118]), (2, [-2489694626084527, -35842268701750, 29862809430878]), (2, [-2490198525344806, -35746858926940, 29851587313435]), (2, [-2499972385800067, -33895758407312, 29633808234027]), (2, [-2682327323100790, 813636830909, 25531731004829]), (3, [])]
  lA := [2489667293886602, -35847443790248, -29863418118312]
  lC := [-2489667293886602, -35847443790248, 29863418118312]

theorem class_Reduced2_4_0_ok : classData 4 .ggqReduced2 6 2 lag6 ((Tables.S_6_2_base_even)[0]!) ((Tables.S_6_2_base_even)[1]!) ((Tables.S_6_2_base_even)[2]!) 11 1 46 class_Reduced2_4_0 = true := by decide +kernel

def class_Reduced2_4_1 : Cert where
  spA := [(3, [2682327323100790, 813636830909, -25531731004829]), (2, [2499972385800067, -33895758407312, -29633808234027]), (2, [2490198525344806, -35746858926940, -29851587313435]), (2, [2489694626084527, -35842268701750, -29862809430878]), (2, [2489668700005364, -35847177555372, -29863386804118]), (2, [2489667366224717, -35847430093731, -29863416507346]), (2, [2489667297608051, -35847443085628, -29863418035436]), (2, [2489667294078048, -35847443753999, -29863418114049]), (2, [2489667293896395, -35847443788381, -29863418118093]), (2, [2489667293887107, -35847443790148, -29863418118301]), (2, [2489667293886602, -35847443790248, -29863418118312])]
  spP := [(2, [2489667293886602, -35847443790248, -29863418118312])]
  spC := [(2, [2489667293886522, -35847443790255, -29863418118311]), (2, [2489667293885375, -35847443790319, -29863418118296]), (2, [2489667293866895, -35847443791343, -29863418118055]), (2, [2489667293576522, -35847443807504, -29863418114262]), (2, [2489667289003088, -35847444062035, -29863418054522]), (2, [2489667216974561, -35847448070755, -29863417113652]), (2, [2489666082569630, -35847511205587, -29863402295528]), (2, [2489648216441335, -35848505531992, -29863168920136]), (2, [2489366850005702, -35864163412264, -29859493652601]), (2, [2484939017003267, -36110232211418, -29801672977794]), (2, [2416070555657620, -39857031942399, -28906261812010]), (2, [1518353387005342, -76697353191592, -17748238520753]), (2, [-1518353387005342, -76697353191592, 17748238520753]), (2, [-2416070555657620, -39857031942399, 28906261812010]), (2, [-2484939017003267, -36110232211418, 29801672977794]), (2, [-2489366850005702, -35864163412264, 29859493652601]), (2, [-2489648216441335, -35848505531992, 29863168920136]), (2, [-2489666082569630, -35847511205587, 29863402295528]), (2, [-2489667216974561, -35847448070755, 29863417113652]), (2, [-2489667289003088, -35847444062035, 29863418054522]), (2, [-2489667293576522, -35847443807504, 29863418114262]), (2, [-2489667293866895, -35847443791343, 29863418118055]), (2, [-2489667293885375, -35847443790319, 29863418118296]), (2, [-2489667293886522, -35847443790255, 29863418118311]), (2, [-2489667293886602, -35847443790248, 29863418118312])]
  spP' := [(2, [-2489667293886602, -35847443790248, 29863418118312])]
  spA' := [(2, [-2489667293887107, -35847443790148, 29863418118301]), (2, [-2489667293896395, -35847443788381, 29863418118093]), (2, [-2489667294078048, -35847443753999, 29863418114049]), (2, [-2489667297608051, -35847443085628, 29863418035436]), (2, [-2489667366224717, -35847430093731, 29863416507346]), (2, [-2489668700005364, -35847177555372, 29863386804118]), (2, [-2489694626084527, -35842268701750, 29862809430878]), (2, [-2490198525344806, -35746858926940, 29851587313435]), (2, [-2499972385800067, -33895758407312, 29633808234027]), (2, [-2682327323100790, 813636830909, 25531731004829]), (3, [])]
  lA := [2489667293886602, -35847443790248, -29863418118312]
  lC := [-2489667293886602, -35847443790248, 29863418118312]

theorem class_Reduced2_4_1_ok : classData 4 .ggqReduced2 6 2 lag6 ((Tables.S_6_2_base_odd)[0]!) ((Tables.S_6_2_base_odd)[1]!) ((Tables.S_6_2_base_odd)[2]!) 11 1 47 class_Reduced2_4_1 = true := by decide +kernel

/-- Degree 4, `ggqReduced2`: the rule of every number of spans. -/
theorem good_Reduced2_4 (e : ℕ) (he : 1 ≤ e) :
    ∃ rule, getGGQ 4 e .ggqReduced2 = .ok rule ∧ GoodRule 6 2 e rule := by
  have key : e ∈ [1, 2, 3, 4, 5, 6, 7, 8, 9, 10, 11, 12, 13, 14, 15, 16, 17, 18, 19, 20, 21, 22, 23, 24, 25, 26, 27, 28, 29, 30, 31, 32, 33, 34, 35, 36, 37, 38, 39, 40, 41, 42, 43, 44, 45] ∨ (46 ≤ e ∧ e % 2 = 0) ∨ (47 ≤ e ∧ e % 2 = 1) := by
    rcases Nat.lt_or_ge e 48 with h | h
    · have : ∀ e < 48, 1 ≤ e → (e ∈ [1, 2, 3, 4, 5, 6, 7, 8, 9, 10, 11, 12, 13, 14, 15, 16, 17, 18, 19, 20, 21, 22, 23, 24, 25, 26, 27, 28, 29, 30, 31, 32, 33, 34, 35, 36, 37, 38, 39, 40, 41, 42, 43, 44, 45] ∨ (46 ≤ e ∧ e % 2 = 0) ∨ (47 ≤ e ∧ e % 2 = 1)) := by decide +kernel
      exact this e h he
    · omega
  rcases key with h | ⟨h1, h2⟩ | ⟨h1, h2⟩
  · exact table_good lag6_ok (by norm_num) rfl cert_Reduced2_4_ok (by simpa [cert_Reduced2_4] using h)
  · have := class_good lag6_ok class_Reduced2_4_0_ok ((e - 46) / 2)
    rwa [show 46 + 2 * 1 * ((e - 46) / 2) = e by omega] at this
  · have := class_good lag6_ok class_Reduced2_4_1_ok ((e - 47) / 2)
    rwa [show 47 + 2 * 1 * ((e - 47) / 2) = e by omega] at this

end QuESo.Rules
