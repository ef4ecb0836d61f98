import Verif.Proofs.RuleCerts.Lagrange

/-! # Certificates of the rules `ggqReduced1` for degree 4 (generated) -/
namespace QuESo.Rules

def cert_Reduced1_4_1 : List (Nat × List Int) :=
  [(4, [])]

def cert_Reduced1_4_2 : List (Nat × List Int) :=
  [(3, [-1300000000000000, 50000000000000, 0]), (4, [])]

def cert_Reduced1_4_3 : List (Nat × List Int) :=
  [(3, [-797254854877135, -16383142144225, 5319685600368]), (3, [797254854877132, -16383142144225, -5319685600368]), (3, [])]

def cert_Reduced1_4_4 : List (Nat × List Int) :=
  [(3, [-826448659731033, -12675127215998, 5032948024379]), (3, [0, -28824831376925, 0]), (3, [826448659731037, -12675127215998, -5032948024379]), (3, [])]

def cert_Reduced1_4_5 : List (Nat × List Int) :=
  [(3, [-794366586643870, -16749103360472, 5347923163795]), (3, [939963782910060, -11119204411007, -6343363422605]), (2, [-939963782910061, -11119204411007, 6343363422605]), (3, [794366586643870, -16749103360472, -5347923163795]), (3, [])]

def cert_Reduced1_4_6 : List (Nat × List Int) :=
  [(3, [-795593985460832, -16593603874633, 5335926178208]), (3, [877209520846327, -13590216086377, -5887038205058]), (2, [-1427647931959436, 60275548942065, 0]), (3, [-877209520846328, -13590216086377, 5887038205058]), (3, [795593985460831, -16593603874633, -5335926178208]), (3, [])]

def cert_Reduced1_4_7 : List (Nat × List Int) :=
  [(3, [-794361317232531, -16749770881712, 5347974659611]), (3, [940241041746414, -11107793127557, -6345394950470]), (2, [-937064275651867, -11528605036672, 6378556889137]), (3, [937064275651868, -11528605036672, -6378556889137]), (2, [-940241041746422, -11107793127557, 6345394950470]), (3, [794361317232525, -16749770881711, -5347974659611]), (3, [])]

def cert_Reduced1_4_8 : List (Nat × List Int) :=
  [(3, [-794420495238348, -16742274269010, 5347396332554]), (3, [937131227076236, -11235530826235, -6322616848859]), (2, [-969093904114652, -6997035927491, 5988302270663]), (3, [0, -29077774261721, 0]), (3, [969093904114652, -6997035927491, -5988302270663]), (2, [-937131227076236, -11235530826235, 6322616848859]), (3, [794420495238350, -16742274269010, -5347396332554]), (3, [])]

def cert_Reduced1_4_9 : List (Nat × List Int) :=
  [(3, [-794361307630225, -16749772098117, 5347974753450]), (3, [940241547050311, -11107772326446, -6345398653056]), (2, [-937058983335241, -11529352144872, 6378621101564]), (3, [937341528464438, -11517277763594, -6380602719611]), (2, [-937341528464447, -11517277763594, 6380602719611]), (3, [937058983335242, -11529352144872, -6378621101564]), (2, [-940241547050309, -11107772326446, 6345398653056]), (3, [794361307630227, -16749772098117, -5347974753450]), (3, [])]

def cert_Reduced1_4_10 : List (Nat × List Int) :=
  [(3, [-794363554741369, -16749487437465, 5347952793356]), (3, [940123303124874, -11112639499423, -6344532240048]), (2, [-938296623874318, -11354621552324, 6363602219805]), (3, [874319755810127, -13980303241739, -5919118362696]), (2, [-1427893807351153, 60296148441418, 0]), (3, [-874319755810116, -13980303241739, 5919118362695]), (3, [938296623874326, -11354621552325, -6363602219805]), (2, [-940123303124863, -11112639499423, 6344532240048]), (3, [794363554741371, -16749487437465, -5347952793356]), (3, [])]

def cert_Reduced1_4_11 : List (Nat × List Int) :=
  [(3, [-794361307612729, -16749772100334, 5347974753621]), (3, [940241547971113, -11107772288541, -6345398659804]), (2, [-937058973691183, -11529353506309, 6378621218577]), (3, [937342033757885, -11517257115572, -6380606448270]), (2, [-937336236132445, -11518025025751, 6380666958192]), (3, [937336236132443, -11518025025752, -6380666958192]), (2, [-937342033757885, -11517257115572, 6380606448270]), (3, [937058973691182, -11529353506309, -6378621218577]), (2, [-940241547971114, -11107772288541, 6345398659804]), (3, [794361307612730, -16749772100334, -5347974753621]), (3, [])]

def cert_Reduced1_4_12 : List (Nat × List Int) :=
  [(3, [-794361415469820, -16749758437162, 5347973699578]), (3, [940235872201067, -11108005933865, -6345357070939]), (2, [-937118417383627, -11520961900463, 6377899974746]), (3, [934231819341181, -11644071666934, -6357664620420]), (2, [-969370901318424, -6984826214349, 5990193739878]), (3, [-7, -29078234735493, 0]), (3, [969370901318425, -6984826214349, -5990193739878]), (2, [-934231819341196, -11644071666935, 6357664620420]), (3, [937118417383613, -11520961900462, -6377899974746]), (2, [-940235872201079, -11108005933866, 6345357070939]), (3, [794361415469816, -16749758437162, -5347973699578]), (3, [])]

def cert_Reduced1_4_13 : List (Nat × List Int) :=
  [(3, [-794361307612692, -16749772100338, 5347974753621]), (3, [940241547972788, -11107772288472, -6345398659816]), (2, [-937058973673599, -11529353508790, 6378621218790]), (3, [937342034678660, -11517257077945, -6380606455065]), (2, [-937336226488355, -11518026387469, 6380667075253]), (3, [937336741425860, -11518004378010, -6380670686899]), (2, [-937336741425846, -11518004378009, 6380670686899]), (3, [937336226488354, -11518026387469, -6380667075253]), (2, [-937342034678644, -11517257077945, 6380606455065]), (3, [937058973673615, -11529353508791, -6378621218790]), (2, [-940241547972774, -11107772288471, 6345398659816]), (3, [794361307612692, -16749772100338, -5347974753621]), (3, [])]

def cert_Reduced1_4_14 : List (Nat × List Int) :=
  [(3, [-794361311707579, -16749771581605, 5347974713604]), (3, [940241332487250, -11107781159054, -6345397080857]), (2, [-937061230571988, -11529034905981, 6378593835533]), (3, [937223792357448, -11522088461958, -6379733934923]), (2, [-938573879563945, -11343258528670, 6365641968221]), (3, [874314482272109, -13981014966258, -5919176882980]), (2, [-1427894255357023, 60296185978184, 0]), (3, [-874314482272140, -13981014966259, 5919176882980]), (3, [938573879563947, -11343258528670, -6365641968221]), (2, [-937223792357463, -11522088461959, 6379733934923]), (3, [937061230571988, -11529034905981, -6378593835533]), (2, [-940241332487251, -11107781159054, 6345397080857]), (3, [794361311707579, -16749771581605, -5347974713604]), (3, [])]

def cert_Reduced1_4_15 : List (Nat × List Int) :=
  [(3, [-794361307612690, -16749772100338, 5347974753621]), (3, [940241547972801, -11107772288472, -6345398659816]), (2, [-937058973673579, -11529353508795, 6378621218790]), (3, [937342034680329, -11517257077876, -6380606455077]), (2, [-937336226470783, -11518026389951, 6380667075466]), (3, [937336742346631, -11518004340383, -6380670693694]), (2, [-937336731781772, -11518005739728, 6380670803959]), (3, [937336731781753, -11518005739727, -6380670803959]), (2, [-937336742346647, -11518004340384, 6380670693694]), (3, [937336226470765, -11518026389950, -6380667075466]), (2, [-937342034680364, -11517257077878, 6380606455077]), (3, [937058973673578, -11529353508795, -6378621218790]), (2, [-940241547972799, -11107772288472, 6345398659816]), (3, [794361307612677, -16749772100337, -5347974753621]), (3, [])]

def cert_Reduced1_4_16 : List (Nat × List Int) :=
  [(3, [-794361307809242, -16749772075440, 5347974751700]), (3, [940241537629970, -11107772714239, -6345398584029]), (2, [-937059081999715, -11529338216564, 6378619904455]), (3, [937336359026337, -11517489003714, -6380564573345]), (2, [-937395670351348, -11509633052677, 6379945537685]), (3, [934226527250961, -11644817199542, -6357728566431]), (2, [-969371406140315, -6984803958334, 5990197187150]), (3, [-1, -29078235574590, 0]), (3, [969371406140299, -6984803958333, -5990197187150]), (2, [-934226527250941, -11644817199542, 6357728566431]), (3, [937395670351348, -11509633052677, -6379945537685]), (2, [-937336359026358, -11517489003714, 6380564573345]), (3, [937059081999733, -11529338216564, -6378619904455]), (2, [-940241537629971, -11107772714239, 6345398584029]), (3, [794361307809256, -16749772075440, -5347974751701]), (3, [])]

def cert_Reduced1_4_17 : List (Nat × List Int) :=
  [(3, [-794361307612701, -16749772100338, 5347974753621]), (3, [940241547972806, -11107772288472, -6345398659816]), (2, [-937058973673581, -11529353508795, 6378621218790]), (3, [937342034680353, -11517257077877, -6380606455077]), (2, [-937336226470750, -11518026389955, 6380667075466]), (3, [937336742348325, -11518004340315, -6380670693706]), (2, [-937336731764199, -11518005742209, 6380670804173]), (3, [937336732702548, -11518005702102, -6380670810754]), (2, [-937336732702526, -11518005702101, 6380670810754]), (3, [937336731764195, -11518005742209, -6380670804173]), (2, [-937336742348345, -11518004340316, 6380670693706]), (3, [937336226470746, -11518026389955, -6380667075466]), (2, [-937342034680357, -11517257077877, 6380606455077]), (3, [937058973673584, -11529353508795, -6378621218790]), (2, [-940241547972785, -11107772288472, 6345398659816]), (3, [794361307612686, -16749772100337, -5347974753621]), (3, [])]

def cert_Reduced1_4_18 : List (Nat × List Int) :=
  [(3, [-794361307620158, -16749772099393, 5347974753548]), (3, [940241547580128, -11107772304636, -6345398656939]), (2, [-937058977786263, -11529352928214, 6378621168891]), (3, [937341819199264, -11517265883175, -6380604865000]), (2, [-937338483375745, -11517707721487, 6380639681056]), (3, [937218500031902, -11522835658740, -6379798162396]), (2, [-938574384862405, -11343237815501, 6365645685793]), (3, [874314472662266, -13981016263215, -5919176989620]), (2, [-1427894256173403, 60296186046586, 0]), (3, [-874314472662304, -13981016263217, 5919176989620]), (3, [938574384862408, -11343237815500, -6365645685793]), (2, [-937218500031922, -11522835658741, 6379798162396]), (3, [937338483375724, -11517707721486, -6380639681056]), (2, [-937341819199266, -11517265883175, 6380604865000]), (3, [937058977786245, -11529352928213, -6378621168891]), (2, [-940241547580147, -11107772304637, 6345398656939]), (3, [794361307620158, -16749772099392, -5347974753548]), (3, [])]

def cert_Reduced1_4_19 : List (Nat × List Int) :=
  [(3, [-794361307612702, -16749772100338, 5347974753621]), (3, [940241547972797, -11107772288472, -6345398659816]), (2, [-937058973673576, -11529353508795, 6378621218790]), (3, [937342034680346, -11517257077877, -6380606455077]), (2, [-937336226470758, -11518026389955, 6380667075466]), (3, [937336742348304, -11518004340314, -6380670693706]), (2, [-937336731764164, -11518005742214, 6380670804173]), (3, [937336732704218, -11518005702033, -6380670810766]), (2, [-937336732684983, -11518005704584, 6380670810967]), (3, [937336732684965, -11518005704583, -6380670810967]), (2, [-937336732704239, -11518005702034, 6380670810766]), (3, [937336731764164, -11518005742214, -6380670804173]), (2, [-937336742348344, -11518004340316, 6380670693706]), (3, [937336226470735, -11518026389954, -6380667075466]), (2, [-937342034680367, -11517257077878, 6380606455077]), (3, [937058973673554, -11529353508794, -6378621218790]), (2, [-940241547972796, -11107772288472, 6345398659816]), (3, [794361307612705, -16749772100338, -5347974753621]), (3, [])]

def cert_Reduced1_4_20 : List (Nat × List Int) :=
  [(3, [-794361307613053, -16749772100293, 5347974753618]), (3, [940241547953945, -11107772289247, -6345398659678]), (2, [-937058973870957, -11529353480928, 6378621216395]), (3, [937342024337746, -11517257500511, -6380606378757]), (2, [-937336334797202, -11518011094573, 6380665760595]), (3, [937331066694620, -11518236263001, -6380628811438]), (2, [-937396175645061, -11509612401784, 6379949265856]), (3, [934226517607308, -11644818558108, -6357728682958]), (2, [-969371407060209, -6984803917776, 5990197193432]), (3, [1, -29078235576119, 0]), (3, [969371407060228, -6984803917777, -5990197193432]), (2, [-934226517607305, -11644818558107, 6357728682958]), (3, [937396175645082, -11509612401786, -6379949265856]), (2, [-937331066694629, -11518236263001, 6380628811438]), (3, [937336334797225, -11518011094574, -6380665760595]), (2, [-937342024337750, -11517257500511, 6380606378757]), (3, [937058973870976, -11529353480929, -6378621216395]), (2, [-940241547953946, -11107772289247, 6345398659678]), (3, [794361307613073, -16749772100293, -5347974753618]), (3, [])]

def cert_Reduced1_4_21 : List (Nat × List Int) :=
  [(3, [-794361307612686, -16749772100338, 5347974753621]), (3, [940241547972788, -11107772288472, -6345398659816]), (2, [-937058973673569, -11529353508794, 6378621218790]), (3, [937342034680345, -11517257077877, -6380606455077]), (2, [-937336226470746, -11518026389955, 6380667075466]), (3, [937336742348315, -11518004340315, -6380670693706]), (2, [-937336731764147, -11518005742213, 6380670804173]), (3, [937336732704213, -11518005702033, -6380670810766]), (2, [-937336732684949, -11518005704588, 6380670810968]), (3, [937336732686650, -11518005704514, -6380670810980]), (2, [-937336732686670, -11518005704516, 6380670810980]), (3, [937336732684946, -11518005704588, -6380670810968]), (2, [-937336732704212, -11518005702033, 6380670810766]), (3, [937336731764145, -11518005742213, -6380670804173]), (2, [-937336742348336, -11518004340316, 6380670693706]), (3, [937336226470746, -11518026389955, -6380667075466]), (2, [-937342034680369, -11517257077877, 6380606455077]), (3, [937058973673569, -11529353508794, -6378621218790]), (2, [-940241547972813, -11107772288472, 6345398659816]), (3, [794361307612707, -16749772100338, -5347974753621]), (3, [])]

def cert_Reduced1_4_22 : List (Nat × List Int) :=
  [(3, [-794361307612718, -16749772100337, 5347974753621]), (3, [940241547972088, -11107772288501, -6345398659811]), (2, [-937058973681070, -11529353507737, 6378621218699]), (3, [937342034287687, -11517257093923, -6380606452180]), (2, [-937336230583434, -11518025809254, 6380667025546]), (3, [937336526867243, -11518013145494, -6380669103609]), (2, [-937338988669152, -11517687073625, 6380643409742]), (3, [937218490387810, -11522837020339, -6379798279436]), (2, [-938574385783188, -11343237777755, 6365645692567]), (3, [874314472644773, -13981016265579, -5919176989814]), (2, [-1427894256174893, 60296186046711, 0]), (3, [-874314472644775, -13981016265579, 5919176989814]), (3, [938574385783212, -11343237777756, -6365645692567]), (2, [-937218490387812, -11522837020339, 6379798279436]), (3, [937338988669149, -11517687073626, -6380643409742]), (2, [-937336526867246, -11518013145493, 6380669103609]), (3, [937336230583479, -11518025809256, -6380667025546]), (2, [-937342034287661, -11517257093921, 6380606452180]), (3, [937058973681094, -11529353507738, -6378621218699]), (2, [-940241547972061, -11107772288501, 6345398659811]), (3, [794361307612720, -16749772100336, -5347974753621]), (3, [])]

def cert_Reduced1_4_23 : List (Nat × List Int) :=
  [(3, [-794361307612703, -16749772100338, 5347974753621]), (3, [940241547972789, -11107772288472, -6345398659816]), (2, [-937058973673572, -11529353508795, 6378621218790]), (3, [937342034680342, -11517257077877, -6380606455077]), (2, [-937336226470751, -11518026389955, 6380667075466]), (3, [937336742348321, -11518004340315, -6380670693706]), (2, [-937336731764158, -11518005742214, 6380670804173]), (3, [937336732704209, -11518005702033, -6380670810766]), (2, [-937336732684922, -11518005704588, 6380670810968]), (3, [937336732686654, -11518005704514, -6380670810980]), (2, [-937336732686634, -11518005704520, 6380670810980]), (3, [937336732686635, -11518005704519, -6380670810980]), (2, [-937336732686650, -11518005704515, 6380670810980]), (3, [937336732684923, -11518005704587, -6380670810968]), (2, [-937336732704231, -11518005702034, 6380670810766]), (3, [937336731764161, -11518005742213, -6380670804173]), (2, [-937336742348321, -11518004340315, 6380670693706]), (3, [937336226470729, -11518026389954, -6380667075466]), (2, [-937342034680367, -11517257077877, 6380606455077]), (3, [937058973673598, -11529353508796, -6378621218790]), (2, [-940241547972794, -11107772288471, 6345398659816]), (3, [794361307612709, -16749772100338, -5347974753621]), (3, [])]

def cert_Reduced1_4_24 : List (Nat × List Int) :=
  [(3, [-794361307612688, -16749772100338, 5347974753621]), (3, [940241547972760, -11107772288473, -6345398659816]), (2, [-937058973673938, -11529353508744, 6378621218786]), (3, [937342034661508, -11517257078647, -6380606454938]), (2, [-937336226668153, -11518026362083, 6380667073070]), (3, [937336732005712, -11518004762943, -6380670617385]), (2, [-937336840090636, -11517990446827, 6380669489301]), (3, [937331057050536, -11518237624713, -6380628928497]), (2, [-937396176565835, -11509612364153, 6379949272650]), (3, [934226517589721, -11644818560583, -6357728683170]), (2, [-969371407061915, -6984803917703, 5990197193444]), (3, [-4, -29078235576122, 0]), (3, [969371407061888, -6984803917702, -5990197193444]), (2, [-934226517589716, -11644818560583, 6357728683170]), (3, [937396176565841, -11509612364153, -6379949272650]), (2, [-937331057050533, -11518237624714, 6380628928497]), (3, [937336840090607, -11517990446825, -6380669489301]), (2, [-937336732005741, -11518004762945, 6380670617385]), (3, [937336226668155, -11518026362083, -6380667073070]), (2, [-937342034661506, -11517257078648, 6380606454938]), (3, [937058973673918, -11529353508742, -6378621218786]), (2, [-940241547972785, -11107772288474, 6345398659816]), (3, [794361307612694, -16749772100337, -5347974753621]), (3, [])]

def cert_Reduced1_4_26 : List (Nat × List Int) :=
  [(3, [-794361307612705, -16749772100338, 5347974753621]), (3, [940241547972807, -11107772288472, -6345398659816]), (2, [-937058973673594, -11529353508793, 6378621218790]), (3, [937342034679638, -11517257077906, -6380606455072]), (2, [-937336226478225, -11518026388896, 6380667075375]), (3, [937336741955645, -11518004356360, -6380670690808]), (2, [-937336735876869, -11518005161513, 6380670754253]), (3, [937336517223165, -11518014507212, -6380669220669]), (2, [-937338989589940, -11517687036000, 6380643416537]), (3, [937218490370259, -11522837022821, -6379798279650]), (2, [-938574385784882, -11343237777687, 6365645692580]), (3, [874314472644744, -13981016265584, -5919176989815]), (2, [-1427894256174896, 60296186046711, 0]), (3, [-874314472644716, -13981016265583, 5919176989815]), (3, [938574385784880, -11343237777687, -6365645692580]), (2, [-937218490370230, -11522837022820, 6379798279650]), (3, [937338989589935, -11517687036000, -6380643416537]), (2, [-937336517223136, -11518014507210, 6380669220669]), (3, [937336735876865, -11518005161513, -6380670754253]), (2, [-937336741955645, -11518004356360, 6380670690808]), (3, [937336226478218, -11518026388896, -6380667075375]), (2, [-937342034679613, -11517257077905, 6380606455072]), (3, [937058973673616, -11529353508795, -6378621218790]), (2, [-940241547972750, -11107772288469, 6345398659816]), (3, [794361307612733, -16749772100340, -5347974753621]), (3, [])]

def cert_Reduced1_4_28 : List (Nat × List Int) :=
  [(3, [-794361307612695, -16749772100338, 5347974753621]), (3, [940241547972784, -11107772288471, -6345398659816]), (2, [-937058973673569, -11529353508795, 6378621218790]), (3, [937342034680302, -11517257077877, -6380606455077]), (2, [-937336226471126, -11518026389905, 6380667075462]), (3, [937336742329484, -11518004341085, -6380670693567]), (2, [-937336731961559, -11518005714342, 6380670801777]), (3, [937336722361617, -11518006124661, -6380670734445]), (2, [-937336841011405, -11517990409201, 6380669496096]), (3, [937331057032947, -11518237627194, -6380628928711]), (2, [-937396176567524, -11509612364085, 6379949272662]), (3, [934226517589694, -11644818560587, -6357728683171]), (2, [-969371407061912, -6984803917703, 5990197193444]), (3, [-1, -29078235576122, 0]), (3, [969371407061920, -6984803917702, -5990197193444]), (2, [-934226517589723, -11644818560589, 6357728683171]), (3, [937396176567490, -11509612364084, -6379949272662]), (2, [-937331057032942, -11518237627195, 6380628928711]), (3, [937336841011417, -11517990409200, -6380669496096]), (2, [-937336722361645, -11518006124663, 6380670734445]), (3, [937336731961563, -11518005714341, -6380670801777]), (2, [-937336742329510, -11518004341087, 6380670693567]), (3, [937336226471094, -11518026389904, -6380667075462]), (2, [-937342034680296, -11517257077878, 6380606455077]), (3, [937058973673606, -11529353508795, -6378621218790]), (2, [-940241547972816, -11107772288472, 6345398659816]), (3, [794361307612697, -16749772100338, -5347974753621]), (3, [])]

def cert_Reduced1_4_30 : List (Nat × List Int) :=
  [(3, [-794361307612708, -16749772100338, 5347974753621]), (3, [940241547972799, -11107772288472, -6345398659816]), (2, [-937058973673562, -11529353508794, 6378621218790]), (3, [937342034680347, -11517257077877, -6380606455077]), (2, [-937336226470771, -11518026389954, 6380667075466]), (3, [937336742347585, -11518004340344, -6380670693701]), (2, [-937336731771658, -11518005741156, 6380670804082]), (3, [937336732311568, -11518005718078, -6380670807869]), (2, [-937336736797650, -11518005123887, 6380670761048]), (3, [937336517205582, -11518014509693, -6380669220882]), (2, [-937338989591602, -11517687035931, 6380643416549]), (3, [937218490370203, -11522837022825, -6379798279650]), (2, [-938574385784874, -11343237777686, 6365645692580]), (3, [874314472644750, -13981016265584, -5919176989815]), (2, [-1427894256174894, 60296186046711, 0]), (3, [-874314472644752, -13981016265584, 5919176989815]), (3, [938574385784866, -11343237777687, -6365645692579]), (2, [-937218490370212, -11522837022824, 6379798279650]), (3, [937338989591601, -11517687035931, -6380643416549]), (2, [-937336517205577, -11518014509693, 6380669220882]), (3, [937336736797616, -11518005123886, -6380670761048]), (2, [-937336732311570, -11518005718079, 6380670807869]), (3, [937336731771657, -11518005741155, -6380670804082]), (2, [-937336742347578, -11518004340344, 6380670693701]), (3, [937336226470744, -11518026389952, -6380667075466]), (2, [-937342034680344, -11517257077877, 6380606455077]), (3, [937058973673560, -11529353508794, -6378621218790]), (2, [-940241547972766, -11107772288471, 6345398659816]), (3, [794361307612711, -16749772100338, -5347974753621]), (3, [])]

def cert_Reduced1_4_32 : List (Nat × List Int) :=
  [(3, [-794361307612709, -16749772100338, 5347974753621]), (3, [940241547972785, -11107772288471, -6345398659816]), (2, [-937058973673568, -11529353508795, 6378621218790]), (3, [937342034680342, -11517257077876, -6380606455077]), (2, [-937336226470759, -11518026389955, 6380667075466]), (3, [937336742348265, -11518004340316, -6380670693706]), (2, [-937336731764495, -11518005742162, 6380670804169]), (3, [937336732685386, -11518005702804, -6380670810627]), (2, [-937336732882340, -11518005676715, 6380670808572]), (3, [937336722344036, -11518006127143, -6380670734659]), (2, [-937336841013072, -11517990409131, 6380669496108]), (3, [937331057032924, -11518237627199, -6380628928711]), (2, [-937396176567528, -11509612364085, 6379949272662]), (3, [934226517589700, -11644818560588, -6357728683171]), (2, [-969371407061905, -6984803917703, 5990197193444]), (3, [-1, -29078235576123, 0]), (3, [969371407061912, -6984803917702, -5990197193444]), (2, [-934226517589703, -11644818560588, 6357728683171]), (3, [937396176567490, -11509612364083, -6379949272662]), (2, [-937331057032959, -11518237627200, 6380628928711]), (3, [937336841013072, -11517990409131, -6380669496108]), (2, [-937336722344072, -11518006127144, 6380670734659]), (3, [937336732882339, -11518005676715, -6380670808572]), (2, [-937336732685385, -11518005702803, 6380670810627]), (3, [937336731764531, -11518005742163, -6380670804169]), (2, [-937336742348308, -11518004340317, 6380670693706]), (3, [937336226470759, -11518026389956, -6380667075466]), (2, [-937342034680340, -11517257077876, 6380606455077]), (3, [937058973673570, -11529353508795, -6378621218790]), (2, [-940241547972785, -11107772288471, 6345398659816]), (3, [794361307612707, -16749772100339, -5347974753621]), (3, [])]

def cert_Reduced1_4_34 : List (Nat × List Int) :=
  [(3, [-794361307612684, -16749772100338, 5347974753621]), (3, [940241547972804, -11107772288472, -6345398659816]), (2, [-937058973673565, -11529353508794, 6378621218790]), (3, [937342034680332, -11517257077876, -6380606455077]), (2, [-937336226470730, -11518026389954, 6380667075466]), (3, [937336742348298, -11518004340315, -6380670693706]), (2, [-937336731764163, -11518005742211, 6380670804173]), (3, [937336732703515, -11518005702062, -6380670810761]), (2, [-937336732692417, -11518005703529, 6380670810877]), (3, [937336732293992, -11518005720560, -6380670808082]), (2, [-937336736799291, -11518005123817, 6380670761060]), (3, [937336517205529, -11518014509697, -6380669220883]), (2, [-937338989591599, -11517687035930, 6380643416549]), (3, [937218490370212, -11522837022824, -6379798279650]), (2, [-938574385784896, -11343237777687, 6365645692580]), (3, [874314472644759, -13981016265584, -5919176989815]), (2, [-1427894256174897, 60296186046711, 0]), (3, [-874314472644718, -13981016265583, 5919176989815]), (3, [938574385784858, -11343237777686, -6365645692579]), (2, [-937218490370211, -11522837022825, 6379798279650]), (3, [937338989591644, -11517687035931, -6380643416549]), (2, [-937336517205521, -11518014509697, 6380669220883]), (3, [937336736799302, -11518005123817, -6380670761060]), (2, [-937336732294025, -11518005720562, 6380670808082]), (3, [937336732692452, -11518005703530, -6380670810877]), (2, [-937336732703511, -11518005702063, 6380670810761]), (3, [937336731764203, -11518005742212, -6380670804173]), (2, [-937336742348304, -11518004340315, 6380670693706]), (3, [937336226470731, -11518026389954, -6380667075466]), (2, [-937342034680334, -11517257077876, 6380606455077]), (3, [937058973673600, -11529353508795, -6378621218790]), (2, [-940241547972848, -11107772288473, 6345398659816]), (3, [794361307612697, -16749772100337, -5347974753621]), (3, [])]

def cert_Reduced1_4_36 : List (Nat × List Int) :=
  [(3, [-794361307612717, -16749772100338, 5347974753621]), (3, [940241547972797, -11107772288472, -6345398659816]), (2, [-937058973673582, -11529353508795, 6378621218790]), (3, [937342034680360, -11517257077877, -6380606455077]), (2, [-937336226470735, -11518026389955, 6380667075466]), (3, [937336742348289, -11518004340314, -6380670693706]), (2, [-937336731764164, -11518005742214, 6380670804173]), (3, [937336732704184, -11518005702034, -6380670810766]), (2, [-937336732685309, -11518005704538, 6380670810963]), (3, [937336732667784, -11518005705283, -6380670810841]), (2, [-937336732884036, -11518005676648, 6380670808584]), (3, [937336722344008, -11518006127147, -6380670734659]), (2, [-937336841013070, -11517990409131, 6380669496108]), (3, [937331057032926, -11518237627199, -6380628928711]), (2, [-937396176567526, -11509612364085, 6379949272662]), (3, [934226517589677, -11644818560587, -6357728683170]), (2, [-969371407061891, -6984803917702, 5990197193444]), (3, [-4, -29078235576124, 0]), (3, [969371407061893, -6984803917702, -5990197193444]), (2, [-934226517589762, -11644818560590, 6357728683171]), (3, [937396176567482, -11509612364083, -6379949272662]), (2, [-937331057032919, -11518237627200, 6380628928711]), (3, [937336841013078, -11517990409131, -6380669496108]), (2, [-937336722344008, -11518006127149, 6380670734659]), (3, [937336732883998, -11518005676646, -6380670808584]), (2, [-937336732667819, -11518005705286, 6380670810841]), (3, [937336732685264, -11518005704536, -6380670810963]), (2, [-937336732704187, -11518005702035, 6380670810766]), (3, [937336731764134, -11518005742212, -6380670804173]), (2, [-937336742348289, -11518004340315, 6380670693706]), (3, [937336226470691, -11518026389953, -6380667075466]), (2, [-937342034680360, -11517257077877, 6380606455077]), (3, [937058973673543, -11529353508793, -6378621218790]), (2, [-940241547972874, -11107772288475, 6345398659816]), (3, [794361307612717, -16749772100338, -5347974753621]), (3, [])]

def cert_Reduced1_4_38 : List (Nat × List Int) :=
  [(3, [-794361307612688, -16749772100338, 5347974753621]), (3, [940241547972796, -11107772288472, -6345398659816]), (2, [-937058973673556, -11529353508794, 6378621218790]), (3, [937342034680329, -11517257077876, -6380606455077]), (2, [-937336226470749, -11518026389956, 6380667075466]), (3, [937336742348324, -11518004340315, -6380670693706]), (2, [-937336731764163, -11518005742214, 6380670804173]), (3, [937336732704215, -11518005702033, -6380670810766]), (2, [-937336732684942, -11518005704586, 6380670810968]), (3, [937336732685930, -11518005704543, -6380670810974]), (2, [-937336732694087, -11518005703461, 6380670810889]), (3, [937336732293966, -11518005720564, -6380670808083]), (2, [-937336736799336, -11518005123819, 6380670761060]), (3, [937336517205520, -11518014509696, -6380669220883]), (2, [-937338989591625, -11517687035932, 6380643416549]), (3, [937218490370243, -11522837022825, -6379798279650]), (2, [-938574385784875, -11343237777687, 6365645692579]), (3, [874314472644711, -13981016265582, -5919176989815]), (2, [-1427894256174880, 60296186046710, 0]), (3, [-874314472644713, -13981016265582, 5919176989815]), (3, [938574385784830, -11343237777685, -6365645692579]), (2, [-937218490370236, -11522837022826, 6379798279650]), (3, [937338989591585, -11517687035930, -6380643416549]), (2, [-937336517205556, -11518014509698, 6380669220883]), (3, [937336736799293, -11518005123817, -6380670761060]), (2, [-937336732293962, -11518005720565, 6380670808083]), (3, [937336732694096, -11518005703459, -6380670810889]), (2, [-937336732685964, -11518005704547, 6380670810975]), (3, [937336732684940, -11518005704584, -6380670810968]), (2, [-937336732704265, -11518005702035, 6380670810767]), (3, [937336731764162, -11518005742213, -6380670804173]), (2, [-937336742348364, -11518004340318, 6380670693706]), (3, [937336226470761, -11518026389954, -6380667075466]), (2, [-937342034680361, -11517257077878, 6380606455077]), (3, [937058973673555, -11529353508793, -6378621218790]), (2, [-940241547972839, -11107772288473, 6345398659816]), (3, [794361307612738, -16749772100338, -5347974753621]), (3, [])]

def cert_Reduced1_4_40 : List (Nat × List Int) :=
  [(3, [-794361307612695, -16749772100338, 5347974753621]), (3, [940241547972802, -11107772288472, -6345398659816]), (2, [-937058973673575, -11529353508795, 6378621218790]), (3, [937342034680373, -11517257077878, -6380606455077]), (2, [-937336226470731, -11518026389954, 6380667075466]), (3, [937336742348324, -11518004340315, -6380670693706]), (2, [-937336731764145, -11518005742213, 6380670804173]), (3, [937336732704203, -11518005702032, -6380670810766]), (2, [-937336732684932, -11518005704588, 6380670810968]), (3, [937336732686630, -11518005704516, -6380670810980]), (2, [-937336732686943, -11518005704468, 6380670810976]), (3, [937336732667790, -11518005705289, -6380670810841]), (2, [-937336732884030, -11518005676646, 6380670808584]), (3, [937336722344020, -11518006127148, -6380670734659]), (2, [-937336841013069, -11517990409130, 6380669496108]), (3, [937331057032916, -11518237627200, -6380628928711]), (2, [-937396176567483, -11509612364083, 6379949272662]), (3, [934226517589726, -11644818560589, -6357728683171]), (2, [-969371407061907, -6984803917703, 5990197193444]), (3, [19, -29078235576123, 0]), (3, [969371407061903, -6984803917702, -5990197193444]), (2, [-934226517589720, -11644818560588, 6357728683171]), (3, [937396176567529, -11509612364085, -6379949272662]), (2, [-937331057032921, -11518237627198, 6380628928711]), (3, [937336841013064, -11517990409131, -6380669496108]), (2, [-937336722343972, -11518006127146, 6380670734659]), (3, [937336732884018, -11518005676648, -6380670808584]), (2, [-937336732667744, -11518005705287, 6380670810841]), (3, [937336732687000, -11518005704469, -6380670810976]), (2, [-937336732686628, -11518005704516, 6380670810980]), (3, [937336732684968, -11518005704590, -6380670810968]), (2, [-937336732704213, -11518005702031, 6380670810766]), (3, [937336731764144, -11518005742214, -6380670804173]), (2, [-937336742348328, -11518004340315, 6380670693706]), (3, [937336226470818, -11518026389958, -6380667075466]), (2, [-937342034680332, -11517257077875, 6380606455077]), (3, [937058973673619, -11529353508797, -6378621218790]), (2, [-940241547972859, -11107772288472, 6345398659816]), (3, [794361307612740, -16749772100339, -5347974753621]), (3, [])]

def cert_Reduced1_4_42 : List (Nat × List Int) :=
  [(3, [-794361307612704, -16749772100339, 5347974753621]), (3, [940241547972812, -11107772288472, -6345398659816]), (2, [-937058973673566, -11529353508795, 6378621218790]), (3, [937342034680349, -11517257077876, -6380606455077]), (2, [-937336226470747, -11518026389955, 6380667075466]), (3, [937336742348335, -11518004340315, -6380670693706]), (2, [-937336731764147, -11518005742214, 6380670804173]), (3, [937336732704196, -11518005702032, -6380670810766]), (2, [-937336732684920, -11518005704587, 6380670810968]), (3, [937336732686652, -11518005704514, -6380670810980]), (2, [-937336732686640, -11518005704518, 6380670810980]), (3, [937336732685872, -11518005704547, -6380670810975]), (2, [-937336732694131, -11518005703462, 6380670810889]), (3, [937336732293957, -11518005720564, -6380670808083]), (2, [-937336736799305, -11518005123818, 6380670761060]), (3, [937336517205522, -11518014509697, -6380669220883]), (2, [-937338989591588, -11517687035930, 6380643416549]), (3, [937218490370233, -11522837022825, -6379798279650]), (2, [-938574385784876, -11343237777687, 6365645692580]), (3, [874314472644738, -13981016265583, -5919176989815]), (2, [-1427894256174886, 60296186046710, 0]), (3, [-874314472644741, -13981016265584, 5919176989815]), (3, [938574385784876, -11343237777686, -6365645692580]), (2, [-937218490370230, -11522837022826, 6379798279650]), (3, [937338989591589, -11517687035930, -6380643416549]), (2, [-937336517205570, -11518014509699, 6380669220883]), (3, [937336736799312, -11518005123817, -6380670761060]), (2, [-937336732293960, -11518005720565, 6380670808083]), (3, [937336732694138, -11518005703460, -6380670810889]), (2, [-937336732685969, -11518005704551, 6380670810975]), (3, [937336732686637, -11518005704517, -6380670810980]), (2, [-937336732686690, -11518005704517, 6380670810980]), (3, [937336732684912, -11518005704587, -6380670810968]), (2, [-937336732704247, -11518005702034, 6380670810767]), (3, [937336731764107, -11518005742211, -6380670804173]), (2, [-937336742348340, -11518004340316, 6380670693706]), (3, [937336226470749, -11518026389954, -6380667075466]), (2, [-937342034680343, -11517257077877, 6380606455077]), (3, [937058973673563, -11529353508794, -6378621218790]), (2, [-940241547972864, -11107772288474, 6345398659816]), (3, [794361307612660, -16749772100336, -5347974753621]), (3, [])]

def cert_Reduced1_4_44 : List (Nat × List Int) :=
  [(3, [-794361307612676, -16749772100337, 5347974753621]), (3, [940241547972806, -11107772288472, -6345398659816]), (2, [-937058973673563, -11529353508794, 6378621218790]), (3, [937342034680359, -11517257077877, -6380606455077]), (2, [-937336226470743, -11518026389955, 6380667075466]), (3, [937336742348303, -11518004340315, -6380670693706]), (2, [-937336731764170, -11518005742214, 6380670804173]), (3, [937336732704209, -11518005702032, -6380670810766]), (2, [-937336732684932, -11518005704588, 6380670810968]), (3, [937336732686631, -11518005704514, -6380670810980]), (2, [-937336732686638, -11518005704519, 6380670810980]), (3, [937336732686614, -11518005704522, -6380670810980]), (2, [-937336732686963, -11518005704467, 6380670810976]), (3, [937336732667809, -11518005705290, -6380670810841]), (2, [-937336732884037, -11518005676647, 6380670808584]), (3, [937336722344031, -11518006127149, -6380670734659]), (2, [-937336841013036, -11517990409130, 6380669496108]), (3, [937331057032936, -11518237627200, -6380628928711]), (2, [-937396176567503, -11509612364084, 6379949272662]), (3, [934226517589723, -11644818560589, -6357728683171]), (2, [-969371407061869, -6984803917701, 5990197193444]), (3, [8, -29078235576124, 0]), (3, [969371407061913, -6984803917703, -5990197193444]), (2, [-934226517589726, -11644818560589, 6357728683171]), (3, [937396176567503, -11509612364084, -6379949272662]), (2, [-937331057032936, -11518237627200, 6380628928711]), (3, [937336841013036, -11517990409130, -6380669496108]), (2, [-937336722344027, -11518006127148, 6380670734659]), (3, [937336732884038, -11518005676647, -6380670808584]), (2, [-937336732667753, -11518005705288, 6380670810841]), (3, [937336732687009, -11518005704470, -6380670810976]), (2, [-937336732686569, -11518005704520, 6380670810980]), (3, [937336732686580, -11518005704519, -6380670810980]), (2, [-937336732686639, -11518005704513, 6380670810980]), (3, [937336732684924, -11518005704588, -6380670810968]), (2, [-937336732704266, -11518005702033, 6380670810767]), (3, [937336731764124, -11518005742213, -6380670804173]), (2, [-937336742348300, -11518004340315, 6380670693706]), (3, [937336226470790, -11518026389957, -6380667075466]), (2, [-937342034680363, -11517257077876, 6380606455077]), (3, [937058973673610, -11529353508797, -6378621218790]), (2, [-940241547972856, -11107772288473, 6345398659816]), (3, [794361307612728, -16749772100339, -5347974753621]), (3, [])]

def cert_Reduced1_4_46 : List (Nat × List Int) :=
  [(3, [-794361307612704, -16749772100338, 5347974753621]), (3, [940241547972791, -11107772288472, -6345398659816]), (2, [-937058973673570, -11529353508794, 6378621218790]), (3, [937342034680364, -11517257077877, -6380606455077]), (2, [-937336226470755, -11518026389955, 6380667075466]), (3, [937336742348292, -11518004340314, -6380670693706]), (2, [-937336731764155, -11518005742214, 6380670804173]), (3, [937336732704237, -11518005702034, -6380670810766]), (2, [-937336732684925, -11518005704587, 6380670810968]), (3, [937336732686652, -11518005704515, -6380670810980]), (2, [-937336732686612, -11518005704519, 6380670810980]), (3, [937336732686605, -11518005704519, -6380670810980]), (2, [-937336732686640, -11518005704517, 6380670810980]), (3, [937336732685920, -11518005704549, -6380670810975]), (2, [-937336732694097, -11518005703460, 6380670810889]), (3, [937336732293977, -11518005720565, -6380670808083]), (2, [-937336736799365, -11518005123819, 6380670761060]), (3, [937336517205543, -11518014509697, -6380669220883]), (2, [-937338989591637, -11517687035931, 6380643416549]), (3, [937218490370224, -11522837022825, -6379798279650]), (2, [-938574385784889, -11343237777688, 6365645692580]), (3, [874314472644754, -13981016265584, -5919176989815]), (2, [-1427894256174897, 60296186046711, 0]), (3, [-874314472644760, -13981016265584, 5919176989815]), (3, [938574385784833, -11343237777686, -6365645692579]), (2, [-937218490370223, -11522837022825, 6379798279650]), (3, [937338989591585, -11517687035929, -6380643416549]), (2, [-937336517205544, -11518014509698, 6380669220883]), (3, [937336736799322, -11518005123817, -6380670761060]), (2, [-937336732293974, -11518005720566, 6380670808083]), (3, [937336732694105, -11518005703460, -6380670810889]), (2, [-937336732685918, -11518005704549, 6380670810975]), (3, [937336732686638, -11518005704517, -6380670810980]), (2, [-937336732686554, -11518005704518, 6380670810980]), (3, [937336732686555, -11518005704518, -6380670810980]), (2, [-937336732686706, -11518005704517, 6380670810980]), (3, [937336732684963, -11518005704589, -6380670810968]), (2, [-937336732704241, -11518005702033, 6380670810766]), (3, [937336731764159, -11518005742213, -6380670804173]), (2, [-937336742348340, -11518004340317, 6380670693706]), (3, [937336226470757, -11518026389954, -6380667075466]), (2, [-937342034680358, -11517257077877, 6380606455077]), (3, [937058973673574, -11529353508795, -6378621218790]), (2, [-940241547972852, -11107772288473, 6345398659816]), (3, [794361307612706, -16749772100338, -5347974753621]), (3, [])]

def cert_Reduced1_4 : List (Nat × List (Nat × List Int)) :=
  [(1, cert_Reduced1_4_1), (2, cert_Reduced1_4_2), (3, cert_Reduced1_4_3), (4, cert_Reduced1_4_4), (5, cert_Reduced1_4_5), (6, cert_Reduced1_4_6), (7, cert_Reduced1_4_7), (8, cert_Reduced1_4_8), (9, cert_Reduced1_4_9), (10, cert_Reduced1_4_10), (11, cert_Reduced1_4_11), (12, cert_Reduced1_4_12), (13, cert_Reduced1_4_13), (14, cert_Reduced1_4_14), (15, cert_Reduced1_4_15), (16, cert_Reduced1_4_16), (17, cert_Reduced1_4_17), (18, cert_Reduced1_4_18), (19, cert_Reduced1_4_19), (20, cert_Reduced1_4_20), (21, cert_Reduced1_4_21), (22, cert_Reduced1_4_22), (23, cert_Reduced1_4_23), (24, cert_Reduced1_4_24), (26, cert_Reduced1_4_26), (28, cert_Reduced1_4_28), (30, cert_Reduced1_4_30), (32, cert_Reduced1_4_32), (34, cert_Reduced1_4_34), (36, cert_Reduced1_4_36), (38, cert_Reduced1_4_38), (40, cert_Reduced1_4_40), (42, cert_Reduced1_4_42), (44, cert_Reduced1_4_44), (46, cert_Reduced1_4_46)]

theorem cert_Reduced1_4_1_ok : tableOK 4 .ggqReduced1 7 2 lag7 Tables.S_7_2_precomputed [(1, cert_Reduced1_4_1)] = true := by decide +kernel
theorem cert_Reduced1_4_2_ok : tableOK 4 .ggqReduced1 7 2 lag7 Tables.S_7_2_precomputed [(2, cert_Reduced1_4_2)] = true := by decide +kernel
theorem cert_Reduced1_4_3_ok : tableOK 4 .ggqReduced1 7 2 lag7 Tables.S_7_2_precomputed [(3, cert_Reduced1_4_3)] = true := by decide +kernel
theorem cert_Reduced1_4_4_ok : tableOK 4 .ggqReduced1 7 2 lag7 Tables.S_7_2_precomputed [(4, cert_Reduced1_4_4)] = true := by decide +kernel
theorem cert_Reduced1_4_5_ok : tableOK 4 .ggqReduced1 7 2 lag7 Tables.S_7_2_precomputed [(5, cert_Reduced1_4_5)] = true := by decide +kernel
theorem cert_Reduced1_4_6_ok : tableOK 4 .ggqReduced1 7 2 lag7 Tables.S_7_2_precomputed [(6, cert_Reduced1_4_6)] = true := by decide +kernel
theorem cert_Reduced1_4_7_ok : tableOK 4 .ggqReduced1 7 2 lag7 Tables.S_7_2_precomputed [(7, cert_Reduced1_4_7)] = true := by decide +kernel
theorem cert_Reduced1_4_8_ok : tableOK 4 .ggqReduced1 7 2 lag7 Tables.S_7_2_precomputed [(8, cert_Reduced1_4_8)] = true := by decide +kernel
theorem cert_Reduced1_4_9_ok : tableOK 4 .ggqReduced1 7 2 lag7 Tables.S_7_2_precomputed [(9, cert_Reduced1_4_9)] = true := by decide +kernel
theorem cert_Reduced1_4_10_ok : tableOK 4 .ggqReduced1 7 2 lag7 Tables.S_7_2_precomputed [(10, cert_Reduced1_4_10)] = true := by decide +kernel
theorem cert_Reduced1_4_11_ok : tableOK 4 .ggqReduced1 7 2 lag7 Tables.S_7_2_precomputed [(11, cert_Reduced1_4_11)] = true := by decide +kernel
theorem cert_Reduced1_4_12_ok : tableOK 4 .ggqReduced1 7 2 lag7 Tables.S_7_2_precomputed [(12, cert_Reduced1_4_12)] = true := by decide +kernel
theorem cert_Reduced1_4_13_ok : tableOK 4 .ggqReduced1 7 2 lag7 Tables.S_7_2_precomputed [(13, cert_Reduced1_4_13)] = true := by decide +kernel
theorem cert_Reduced1_4_14_ok : tableOK 4 .ggqReduced1 7 2 lag7 Tables.S_7_2_precomputed [(14, cert_Reduced1_4_14)] = true := by decide +kernel
theorem cert_Reduced1_4_15_ok : tableOK 4 .ggqReduced1 7 2 lag7 Tables.S_7_2_precomputed [(15, cert_Reduced1_4_15)] = true := by decide +kernel
theorem cert_Reduced1_4_16_ok : tableOK 4 .ggqReduced1 7 2 lag7 Tables.S_7_2_precomputed [(16, cert_Reduced1_4_16)] = true := by decide +kernel
theorem cert_Reduced1_4_17_ok : tableOK 4 .ggqReduced1 7 2 lag7 Tables.S_7_2_precomputed [(17, cert_Reduced1_4_17)] = true := by decide +kernel
theorem cert_Reduced1_4_18_ok : tableOK 4 .ggqReduced1 7 2 lag7 Tables.S_7_2_precomputed [(18, cert_Reduced1_4_18)] = true := by decide +kernel
theorem cert_Reduced1_4_19_ok : tableOK 4 .ggqReduced1 7 2 lag7 Tables.S_7_2_precomputed [(19, cert_Reduced1_4_19)] = true := by decide +kernel
theorem cert_Reduced1_4_20_ok : tableOK 4 .ggqReduced1 7 2 lag7 Tables.S_7_2_precomputed [(20, cert_Reduced1_4_20)] = true := by decide +kernel
theorem cert_Reduced1_4_21_ok : tableOK 4 .ggqReduced1 7 2 lag7 Tables.S_7_2_precomputed [(21, cert_Reduced1_4_21)] = true := by decide +kernel
theorem cert_Reduced1_4_22_ok : tableOK 4 .ggqReduced1 7 2 lag7 Tables.S_7_2_precomputed [(22, cert_Reduced1_4_22)] = true := by decide +kernel
theorem cert_Reduced1_4_23_ok : tableOK 4 .ggqReduced1 7 2 lag7 Tables.S_7_2_precomputed [(23, cert_Reduced1_4_23)] = true := by decide +kernel
theorem cert_Reduced1_4_24_ok : tableOK 4 .ggqReduced1 7 2 lag7 Tables.S_7_2_precomputed [(24, cert_Reduced1_4_24)] = true := by decide +kernel
theorem cert_Reduced1_4_26_ok : tableOK 4 .ggqReduced1 7 2 lag7 Tables.S_7_2_precomputed [(26, cert_Reduced1_4_26)] = true := by decide +kernel
theorem cert_Reduced1_4_28_ok : tableOK 4 .ggqReduced1 7 2 lag7 Tables.S_7_2_precomputed [(28, cert_Reduced1_4_28)] = true := by decide +kernel
theorem cert_Reduced1_4_30_ok : tableOK 4 .ggqReduced1 7 2 lag7 Tables.S_7_2_precomputed [(30, cert_Reduced1_4_30)] = true := by decide +kernel
theorem cert_Reduced1_4_32_ok : tableOK 4 .ggqReduced1 7 2 lag7 Tables.S_7_2_precomputed [(32, cert_Reduced1_4_32)] = true := by decide +kernel
theorem cert_Reduced1_4_34_ok : tableOK 4 .ggqReduced1 7 2 lag7 Tables.S_7_2_precomputed [(34, cert_Reduced1_4_34)] = true := by decide +kernel
theorem cert_Reduced1_4_36_ok : tableOK 4 .ggqReduced1 7 2 lag7 Tables.S_7_2_precomputed [(36, cert_Reduced1_4_36)] = true := by decide +kernel
theorem cert_Reduced1_4_38_ok : tableOK 4 .ggqReduced1 7 2 lag7 Tables.S_7_2_precomputed [(38, cert_Reduced1_4_38)] = true := by decide +kernel
theorem cert_Reduced1_4_40_ok : tableOK 4 .ggqReduced1 7 2 lag7 Tables.S_7_2_precomputed [(40, cert_Reduced1_4_40)] = true := by decide +kernel
theorem cert_Reduced1_4_42_ok : tableOK 4 .ggqReduced1 7 2 lag7 Tables.S_7_2_precomputed [(42, cert_Reduced1_4_42)] = true := by decide +kernel
theorem cert_Reduced1_4_44_ok : tableOK 4 .ggqReduced1 7 2 lag7 Tables.S_7_2_precomputed [(44, cert_Reduced1_4_44)] = true := by decide +kernel
theorem cert_Reduced1_4_46_ok : tableOK 4 .ggqReduced1 7 2 lag7 Tables.S_7_2_precomputed [(46, cert_Reduced1_4_46)] = true := by decide +kernel

theorem cert_Reduced1_4_ok : tableOK 4 .ggqReduced1 7 2 lag7 Tables.S_7_2_precomputed cert_Reduced1_4 = true :=
  tableOK_cons cert_Reduced1_4_1_ok (tableOK_cons cert_Reduced1_4_2_ok (tableOK_cons cert_Reduced1_4_3_ok (tableOK_cons cert_Reduced1_4_4_ok (tableOK_cons cert_Reduced1_4_5_ok (tableOK_cons cert_Reduced1_4_6_ok (tableOK_cons cert_Reduced1_4_7_ok (tableOK_cons cert_Reduced1_4_8_ok (tableOK_cons cert_Reduced1_4_9_ok (tableOK_cons cert_Reduced1_4_10_ok (tableOK_cons cert_Reduced1_4_11_ok (tableOK_cons cert_Reduced1_4_12_ok (tableOK_cons cert_Reduced1_4_13_ok (tableOK_cons cert_Reduced1_4_14_ok (tableOK_cons cert_Reduced1_4_15_ok (tableOK_cons cert_Reduced1_4_16_ok (tableOK_cons cert_Reduced1_4_17_ok (tableOK_cons cert_Reduced1_4_18_ok (tableOK_cons cert_Reduced1_4_19_ok (tableOK_cons cert_Reduced1_4_20_ok (tableOK_cons cert_Reduced1_4_21_ok (tableOK_cons cert_Reduced1_4_22_ok (tableOK_cons cert_Reduced1_4_23_ok (tableOK_cons cert_Reduced1_4_24_ok (tableOK_cons cert_Reduced1_4_26_ok (tableOK_cons cert_Reduced1_4_28_ok (tableOK_cons cert_Reduced1_4_30_ok (tableOK_cons cert_Reduced1_4_32_ok (tableOK_cons cert_Reduced1_4_34_ok (tableOK_cons cert_Reduced1_4_36_ok (tableOK_cons cert_Reduced1_4_38_ok (tableOK_cons cert_Reduced1_4_40_ok (tableOK_cons cert_Reduced1_4_42_ok (tableOK_cons cert_Reduced1_4_44_ok (tableOK_cons cert_Reduced1_4_46_ok (rfl)))))))))))))))))))))))))))))))))))

def class_Reduced1_4_0 : Cert where
  spA := [(3, [-1588722615225392, -33499544200676, 10695949507242]), (3, [1880483095945589, -22215544576943, -12690797319632]), (2, [-1874117947347139, -23058707017589, 12757242437581]), (3, [1874684069360690, -23034514155753, -12761212910154]), (2, [-1874672452941487, -23036052779910, 12761334150932]), (3, [1874673484696628, -23036008680630, -12761341387412]), (2, [-1874673463528311, -23036011484427, 12761341608346]), (3, [1874673465408446, -23036011404065, -12761341621533]), (2, [-1874673465369928, -23036011409179, 12761341621936]), (3, [1874673465373261, -23036011409025, -12761341621959]), (2, [-1874673465373245, -23036011409039, 12761341621960]), (3, [1874673465373238, -23036011409038, -12761341621960])]
  spP := [(2, [-1874673465373216, -23036011409038, 12761341621960]), (3, [1874673465373238, -23036011409038, -12761341621960])]
  spC := [(2, [-1874673465373230, -23036011409039, 12761341621960]), (3, [1874673465373193, -23036011409042, -12761341621960]), (2, [-1874673465373941, -23036011408936, 12761341621951]), (3, [1874673465335562, -23036011410579, -12761341621682]), (2, [-1874673465768036, -23036011353293, 12761341617168]), (3, [1874673444688035, -23036012254296, -12761341469318]), (2, [-1874673682026169, -23035980818263, 12761338992216]), (3, [1874662114065847, -23036475254399, -12761257857422]), (2, [-1874792353135032, -23019224728168, 12759898545325]), (3, [1868453035179406, -23289637121176, -12715457366341]), (2, [-1938742814123809, -13969607835405, 11980394386887]), (3, [0, -58156471152244, 0]), (3, [1938742814123809, -13969607835405, -11980394386887]), (2, [-1868453035179406, -23289637121176, 12715457366341]), (3, [1874792353135032, -23019224728168, -12759898545325]), (2, [-1874662114065847, -23036475254399, 12761257857422]), (3, [1874673682026169, -23035980818263, -12761338992216]), (2, [-1874673444688035, -23036012254296, 12761341469318]), (3, [1874673465768036, -23036011353293, -12761341617168]), (2, [-1874673465335562, -23036011410579, 12761341621682]), (3, [1874673465373941, -23036011408936, -12761341621951]), (2, [-1874673465373193, -23036011409042, 12761341621960]), (3, [1874673465373230, -23036011409039, -12761341621960]), (2, [-1874673465373238, -23036011409038, 12761341621960])]
  spP' := [(3, [1874673465373216, -23036011409038, -12761341621960]), (2, [-1874673465373238, -23036011409038, 12761341621960])]
  spA' := [(3, [1874673465373245, -23036011409039, -12761341621960]), (2, [-1874673465373261, -23036011409025, 12761341621959]), (3, [1874673465369928, -23036011409179, -12761341621936]), (2, [-1874673465408446, -23036011404065, 12761341621533]), (3, [1874673463528311, -23036011484427, -12761341608346]), (2, [-1874673484696628, -23036008680630, 12761341387412]), (3, [1874672452941487, -23036052779910, -12761334150932]), (2, [-1874684069360690, -23034514155753, 12761212910154]), (3, [1874117947347139, -23058707017589, -12757242437581]), (2, [-1880483095945589, -22215544576943, 12690797319632]), (3, [1588722615225392, -33499544200676, -10695949507242]), (3, [])]
  lA := [1874673465373238, -23036011409038, -12761341621960]
  lC := [-1874673465373238, -23036011409038, 12761341621960]

theorem class_Reduced1_4_0_ok : classData 4 .ggqReduced1 7 2 lag7 ((Tables.S_7_2_base_even)[0]!) ((Tables.S_7_2_base_even)[1]!) ((Tables.S_7_2_base_even)[2]!) 12 2 48 class_Reduced1_4_0 = true := by decide +kernel

def class_Reduced1_4_1 : Cert where
  spA := [(3, [-1588722615225392, -33499544200676, 10695949507242]), (3, [1880483095945589, -22215544576943, -12690797319632]), (2, [-1874117947347139, -23058707017589, 12757242437581]), (3, [1874684069360690, -23034514155753, -12761212910154]), (2, [-1874672452941487, -23036052779910, 12761334150932]), (3, [1874673484696628, -23036008680630, -12761341387412]), (2, [-1874673463528311, -23036011484427, 12761341608346]), (3, [1874673465408446, -23036011404065, -12761341621533]), (2, [-1874673465369928, -23036011409179, 12761341621936]), (3, [1874673465373261, -23036011409025, -12761341621959]), (2, [-1874673465373245, -23036011409039, 12761341621960]), (3, [1874673465373238, -23036011409038, -12761341621960])]
  spP := [(2, [-1874673465373216, -23036011409038, 12761341621960]), (3, [1874673465373238, -23036011409038, -12761341621960])]
  spC := [(2, [-1874673465373238, -23036011409038, 12761341621960])]
  spP' := [(3, [1874673465373216, -23036011409038, -12761341621960]), (2, [-1874673465373238, -23036011409038, 12761341621960])]
  spA' := [(3, [1874673465373245, -23036011409039, -12761341621960]), (2, [-1874673465373261, -23036011409025, 12761341621959]), (3, [1874673465369928, -23036011409179, -12761341621936]), (2, [-1874673465408446, -23036011404065, 12761341621533]), (3, [1874673463528311, -23036011484427, -12761341608346]), (2, [-1874673484696628, -23036008680630, 12761341387412]), (3, [1874672452941487, -23036052779910, -12761334150932]), (2, [-1874684069360690, -23034514155753, 12761212910154]), (3, [1874117947347139, -23058707017589, -12757242437581]), (2, [-1880483095945589, -22215544576943, 12690797319632]), (3, [1588722615225392, -33499544200676, -10695949507242]), (3, [])]
  lA := [1874673465373238, -23036011409038, -12761341621960]
  lC := [-1874673465373238, -23036011409038, 12761341621960]

theorem class_Reduced1_4_1_ok : classData 4 .ggqReduced1 7 2 lag7 ((Tables.S_7_2_base_even)[0]!) ((Tables.S_7_2_base_even)[1]!) ((Tables.S_7_2_base_even)[2]!) 12 2 25 class_Reduced1_4_1 = true := by decide +kernel

def class_Reduced1_4_2 : Cert where
  spA := [(3, [-1588722615225392, -33499544200676, 10695949507242]), (3, [1880483095945589, -22215544576943, -12690797319632]), (2, [-1874117947347139, -23058707017589, 12757242437581]), (3, [1874684069360690, -23034514155753, -12761212910154]), (2, [-1874672452941487, -23036052779910, 12761334150932]), (3, [1874673484696628, -23036008680630, -12761341387412]), (2, [-1874673463528311, -23036011484427, 12761341608346]), (3, [1874673465408446, -23036011404065, -12761341621533]), (2, [-1874673465369928, -23036011409179, 12761341621936]), (3, [1874673465373261, -23036011409025, -12761341621959]), (2, [-1874673465373245, -23036011409039, 12761341621960]), (3, [1874673465373238, -23036011409038, -12761341621960])]
  spP := [(2, [-1874673465373216, -23036011409038, 12761341621960]), (3, [1874673465373238, -23036011409038, -12761341621960])]
  spC := [(2, [-1874673465373226, -23036011409039, 12761341621960]), (3, [1874673465373227, -23036011409039, -12761341621960]), (2, [-1874673465373248, -23036011409032, 12761341621960]), (3, [1874673465371834, -23036011409098, -12761341621950]), (2, [-1874673465388240, -23036011406922, 12761341621778]), (3, [1874673464587906, -23036011441129, -12761341616165]), (2, [-1874673473598628, -23036010247636, 12761341522120]), (3, [1874673034411088, -23036029019395, -12761338441765]), (2, [-1874677979183221, -23035374071861, 12761286833098]), (3, [1874436980740443, -23045674045650, -12759596559300]), (2, [-1877148771569753, -22686475555373, 12731291385159]), (3, [1748628945289483, -27962032531167, -11838353979629]), (2, [-2855788512349797, 120592372093422, 0]), (3, [-1748628945289483, -27962032531167, 11838353979629]), (3, [1877148771569753, -22686475555373, -12731291385159]), (2, [-1874436980740443, -23045674045650, 12759596559300]), (3, [1874677979183221, -23035374071861, -12761286833098]), (2, [-1874673034411088, -23036029019395, 12761338441765]), (3, [1874673473598628, -23036010247636, -12761341522120]), (2, [-1874673464587906, -23036011441129, 12761341616165]), (3, [1874673465388240, -23036011406922, -12761341621778]), (2, [-1874673465371834, -23036011409098, 12761341621950]), (3, [1874673465373248, -23036011409032, -12761341621960]), (2, [-1874673465373227, -23036011409039, 12761341621960]), (3, [1874673465373226, -23036011409039, -12761341621960]), (2, [-1874673465373238, -23036011409038, 12761341621960])]
  spP' := [(3, [1874673465373216, -23036011409038, -12761341621960]), (2, [-1874673465373238, -23036011409038, 12761341621960])]
  spA' := [(3, [1874673465373245, -23036011409039, -12761341621960]), (2, [-1874673465373261, -23036011409025, 12761341621959]), (3, [1874673465369928, -23036011409179, -12761341621936]), (2, [-1874673465408446, -23036011404065, 12761341621533]), (3, [1874673463528311, -23036011484427, -12761341608346]), (2, [-1874673484696628, -23036008680630, 12761341387412]), (3, [1874672452941487, -23036052779910, -12761334150932]), (2, [-1874684069360690, -23034514155753, 12761212910154]), (3, [1874117947347139, -23058707017589, -12757242437581]), (2, [-1880483095945589, -22215544576943, 12690797319632]), (3, [1588722615225392, -33499544200676, -10695949507242]), (3, [])]
  lA := [1874673465373238, -23036011409038, -12761341621960]
  lC := [-1874673465373238, -23036011409038, 12761341621960]

theorem class_Reduced1_4_2_ok : classData 4 .ggqReduced1 7 2 lag7 ((Tables.S_7_2_base_odd)[0]!) ((Tables.S_7_2_base_odd)[1]!) ((Tables.S_7_2_base_odd)[2]!) 12 2 50 class_Reduced1_4_2 = true := by decide +kernel

def class_Reduced1_4_3 : Cert where
  spA := [(3, [-1588722615225392, -33499544200676, 10695949507242]), (3, [1880483095945589, -22215544576943, -12690797319632]), (2, [-1874117947347139, -23058707017589, 12757242437581]), (3, [1874684069360690, -23034514155753, -12761212910154]), (2, [-1874672452941487, -23036052779910, 12761334150932]), (3, [1874673484696628, -23036008680630, -12761341387412]), (2, [-1874673463528311, -23036011484427, 12761341608346]), (3, [1874673465408446, -23036011404065, -12761341621533]), (2, [-1874673465369928, -23036011409179, 12761341621936]), (3, [1874673465373261, -23036011409025, -12761341621959]), (2, [-1874673465373245, -23036011409039, 12761341621960]), (3, [1874673465373238, -23036011409038, -12761341621960])]
  spP := [(2, [-1874673465373216, -23036011409038, 12761341621960]), (3, [1874673465373238, -23036011409038, -12761341621960])]
  spC := [(2, [-1874673465373225, -23036011409039, 12761341621960]), (3, [1874673465373225, -23036011409039, -12761341621960]), (2, [-1874673465373238, -23036011409038, 12761341621960])]
  spP' := [(3, [1874673465373216, -23036011409038, -12761341621960]), (2, [-1874673465373238, -23036011409038, 12761341621960])]
  spA' := [(3, [1874673465373245, -23036011409039, -12761341621960]), (2, [-1874673465373261, -23036011409025, 12761341621959]), (3, [1874673465369928, -23036011409179, -12761341621936]), (2, [-1874673465408446, -23036011404065, 12761341621533]), (3, [1874673463528311, -23036011484427, -12761341608346]), (2, [-1874673484696628, -23036008680630, 12761341387412]), (3, [1874672452941487, -23036052779910, -12761334150932]), (2, [-1874684069360690, -23034514155753, 12761212910154]), (3, [1874117947347139, -23058707017589, -12757242437581]), (2, [-1880483095945589, -22215544576943, 12690797319632]), (3, [1588722615225392, -33499544200676, -10695949507242]), (3, [])]
  lA := [1874673465373238, -23036011409038, -12761341621960]
  lC := [-1874673465373238, -23036011409038, 12761341621960]

theorem class_Reduced1_4_3_ok : classData 4 .ggqReduced1 7 2 lag7 ((Tables.S_7_2_base_odd)[0]!) ((Tables.S_7_2_base_odd)[1]!) ((Tables.S_7_2_base_odd)[2]!) 12 2 27 class_Reduced1_4_3 = true := by decide +kernel

/-- Degree 4, `ggqReduced1`: the rule of every number of spans. -/
theorem good_Reduced1_4 (e : ℕ) (he : 1 ≤ e) :
    ∃ rule, getGGQ 4 e .ggqReduced1 = .ok rule ∧ GoodRule 7 2 e rule := by
  have key : e ∈ [1, 2, 3, 4, 5, 6, 7, 8, 9, 10, 11, 12, 13, 14, 15, 16, 17, 18, 19, 20, 21, 22, 23, 24, 26, 28, 30, 32, 34, 36, 38, 40, 42, 44, 46] ∨ (48 ≤ e ∧ e % 4 = 0) ∨ (25 ≤ e ∧ e % 4 = 1) ∨ (50 ≤ e ∧ e % 4 = 2) ∨ (27 ≤ e ∧ e % 4 = 3) := by
    rcases Nat.lt_or_ge e 51 with h | h
    · have : ∀ e < 51, 1 ≤ e → (e ∈ [1, 2, 3, 4, 5, 6, 7, 8, 9, 10, 11, 12, 13, 14, 15, 16, 17, 18, 19, 20, 21, 22, 23, 24, 26, 28, 30, 32, 34, 36, 38, 40, 42, 44, 46] ∨ (48 ≤ e ∧ e % 4 = 0) ∨ (25 ≤ e ∧ e % 4 = 1) ∨ (50 ≤ e ∧ e % 4 = 2) ∨ (27 ≤ e ∧ e % 4 = 3)) := by decide +kernel
      exact this e h he
    · omega
  rcases key with h | ⟨h1, h2⟩ | ⟨h1, h2⟩ | ⟨h1, h2⟩ | ⟨h1, h2⟩
  · exact table_good lag7_ok (by norm_num) rfl cert_Reduced1_4_ok (by simpa [cert_Reduced1_4] using h)
  · have := class_good lag7_ok class_Reduced1_4_0_ok ((e - 48) / 4)
    rwa [show 48 + 2 * 2 * ((e - 48) / 4) = e by omega] at this
  · have := class_good lag7_ok class_Reduced1_4_1_ok ((e - 25) / 4)
    rwa [show 25 + 2 * 2 * ((e - 25) / 4) = e by omega] at this
  · have := class_good lag7_ok class_Reduced1_4_2_ok ((e - 50) / 4)
    rwa [show 50 + 2 * 2 * ((e - 50) / 4) = e by omega] at this
  · have := class_good lag7_ok class_Reduced1_4_3_ok ((e - 27) / 4)
    rwa [show 27 + 2 * 2 * ((e - 27) / 4) = e by omega] at this

end QuESo.Rules
