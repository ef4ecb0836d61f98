import Verif.Proofs.RuleGood
import Mathlib.Tactic.IntervalCases

/-! # Certificates of the Gauss rules (generated) -/
namespace QuESo.Rules

def glag1 : Lagrange := ⟨1, 1, 2, [[1, -1],
  [0, 1]]⟩

theorem glag1_ok : glag1.ok = true := by decide +kernel

theorem gauss_row0_ok : rowOK 1 0 glag1 gaussScale 1 Tables.gaussLegendre_row0 [(1, [])] = true := by decide +kernel

def glag3 : Lagrange := ⟨3, 2, 12, [[2, -11, 18, -9],
  [0, 18, -45, 27],
  [0, -9, 36, -27],
  [0, 2, -9, 9]]⟩

theorem glag3_ok : glag3.ok = true := by decide +kernel

theorem gauss_row1_ok : rowOK 3 0 glag3 gaussScale 1 Tables.gaussLegendre_row1 [(2, [])] = true := by decide +kernel

def glag5 : Lagrange := ⟨5, 24, 60, [[24, -274, 1125, -2125, 1875, -625],
  [0, 600, -3850, 8875, -8750, 3125],
  [0, -600, 5350, -14750, 16250, -6250],
  [0, 400, -3900, 12250, -15000, 6250],
  [0, -150, 1525, -5125, 6875, -3125],
  [0, 24, -250, 875, -1250, 625]]⟩

theorem glag5_ok : glag5.ok = true := by decide +kernel

theorem gauss_row2_ok : rowOK 5 0 glag5 gaussScale 1 Tables.gaussLegendre_row2 [(3, [])] = true := by decide +kernel

def glag7 : Lagrange := ⟨7, 720, 840, [[720, -13068, 91924, -331681, 672280, -773122, 470596, -117649],
  [0, 35280, -393372, 1750672, -3997665, 4958065, -3176523, 823543],
  [0, -52920, 775278, -4042941, 10228260, -13613670, 9176622, -2470629],
  [0, 58800, -930020, 5337080, -14634095, 20756645, -14706125, 4117715],
  [0, -44100, 723240, -4364675, 12677280, -18991910, 14117880, -4117715],
  [0, 21168, -354564, 2206176, -6662775, 10437147, -8117781, 2470629],
  [0, -5880, 99862, -634207, 1968820, -3193330, 2588278, -823543],
  [0, 720, -12348, 79576, -252105, 420175, -352947, 117649]]⟩

theorem glag7_ok : glag7.ok = true := by decide +kernel

theorem gauss_row3_ok : rowOK 7 0 glag7 gaussScale 1 Tables.gaussLegendre_row3 [(4, [])] = true := by decide +kernel

def glag9 : Lagrange := ⟨9, 4480, 2520, [[4480, -114064, 1172700, -6513120, 21815325, -46126017, 62001450, -51372630, 23914845, -4782969],
  [0, 362880, -5973264, 41229324, -156498804, 358552089, -509238576, 438970266, -210450636, 43046721],
  [0, -725760, 15212448, -121521384, 508279212, -1246826196, 1861696872, -1666598976, 822670668, -172186884],
  [0, 1128960, -25357248, 219448656, -982960272, 2548581084, -3978013032, 3690326304, -1874923848, 401769396],
  [0, -1270080, 29479464, -266131656, 1247673294, -3377379726, 5477621436, -5252762844, 2745424206, -602654094],
  [0, 1016064, -24040800, 222694920, -1076324760, 3010331142, -5042784600, 4984916580, -2678462640, 602654094],
  [0, -564480, 13525344, -127472184, 629444844, -1804563684, 3105032616, -3154633776, 1741000716, -401769396],
  [0, 207360, -5012928, 47834064, -239963472, 701213436, -1233415512, 1283961456, -727011288, 172186884],
  [0, -45360, 1103868, -10631736, 53984637, -160147449, 286860042, -305047134, 176969853, -43046721],
  [0, 4480, -109584, 1063116, -5450004, 16365321, -29760696, 32240754, -19131876, 4782969]]⟩

theorem glag9_ok : glag9.ok = true := by decide +kernel

theorem gauss_row4_ok : rowOK 9 0 glag9 gaussScale 1 Tables.gaussLegendre_row4 [(5, [])] = true := by decide +kernel

def glag11 : Lagrange := ⟨11, 3628800, 27720, [[3628800, -120543840, 1660097736, -12736227196, 61220316630, -195304131935, 424781353458, -633196647303, 636645876570, -412640845925, 155624547606, -25937424601],
  [0, 439084800, -9755871840, 93557235816, -511953896740, 1776165448090, -4093980035145, 6364763381823, -6604397123610, 4385782705260, -1685932599065, 285311670611],
  [0, -1097712000, 30427095600, -334830539340, 2011140760420, -7457871598265, 18061206119880, -29159725761705, 31163494119780, -21186160003635, 8299975872320, -1426558353055],
  [0, 2195424000, -64879135200, 766468967880, -4895031238020, 19089843688410, -48162906296505, 80395395754905, -88300853850330, 61400957873640, -24510866247945, 4279675059165],
  [0, -3293136000, 100337410800, -1230610815720, 8173946437140, -33079084639590, 86271016972140, -148243781589750, 166955558055660, -118628348334210, 48243609757860, -8559350118330],
  [0, 3688312320, -114406471872, 1435629100752, -9786717300360, 40693551761940, -108981305822466, 191988894845286, -221205503659140, 160434760895640, -66451681827762, 11983090165662],
  [0, -3073593600, 96465710880, -1229248979112, 8533961306640, -36208012456770, 99041243578200, -178214193152226, 209591539486560, -154987901729430, 65362309994520, -11983090165662],
  [0, 1881792000, -59553489600, 767295199440, -5398893932520, 23263130872740, -64722794189130, 118572225281730, -142029907372980, 106956507263760, -45909241543770, 8559350118330],
  [0, -823284000, 26216368200, -340587167580, 2421224189670, -10560176074635, 29789382830130, -55411868174355, 67465170617130, -51674423648265, 22565559402870, -4279675059165],
  [0, 243936000, -7805080800, 102055915720, -731422486740, 3221404911890, -9191505087765, 17320684764075, -21395159912610, 16647110698460, -7392166011285, 1426558353055],
  [0, -43908480, 1410281136, -18535873356, 133718888380, -593675054005, 1710137437008, -3258703196133, 4077105916620, -3218598598215, 1452495777656, -285311670611],
  [0, 3628800, -116915040, 1543182696, -11193044500, 50027272130, -145276859805, 279504493653, -353692153650, 282953722920, -129687123005, 25937424601]]⟩

theorem glag11_ok : glag11.ok = true := by decide +kernel

theorem gauss_row5_ok : rowOK 11 0 glag11 gaussScale 1 Tables.gaussLegendre_row5 [(6, [])] = true := by decide +kernel

def glag13 : Lagrange := ⟨13, 479001600, 360360, [[479001600, -19802759040, 345757321728, -3433024273224, 21877075151932, -95282888646946, 293671656106829, -651795263204657, 1045996004654601, -1202772923385033, 965974452385943, -514350033088619, 163086595857367, -23298085122481],
  [0, 80951270400, -2294299762560, 28607090458752, -208288926211080, 989469659932468, -3239702602211790, 7514376053300831, -12466510788676230, 14708684533836579, -12055725112195050, 6525255994688717, -2096827661023290, 302875106592253],
  [0, -242853811200, 8461449060480, -120299543222976, 958596275575224, -4860801310790568, 16713216023862930, -40255625491053258, 68798632752914922, -83128861465935714, 69468272627629590, -38205275280080766, 12441177455404854, -1817250639553518],
  [0, 593642649600, -21969767888640, 333306246544128, -2810334347591056, 14934872965399816, -53369477146382540, 132689338167405734, -232804464139546728, 287518370497233018, -244723637560507820, 136695241894778138, -45105092797123216, 6663252345029566],
  [0, -1113079968000, 42399151423200, -665656334240040, 5814107068624140, -31941005411273530, 117605344906701795, -300202139931463055, 538952288094566775, -679038279508787055, 588069172312412505, -333458323716494405, 111481337311071585, -16658130862573915],
  [0, 1602835153920, -62096620899456, 995521935627648, -8899228790430264, 50067074018276172, -188661209542892658, 492164950853150289, -901408437517232502, 1156449893230421361, -1017949033831901886, 585676224610897563, -198359896732803234, 29984635552633047],
  [0, -1780927948800, 69767980888320, -1134361763593344, 10306200426727920, -59008864490306016, 226409240260348860, -601317863507767692, 1120519417661418060, -1461221073706067388, 1305930736115740020, -761976419053499364, 261404515074236820, -39979514070177396],
  [0, 1526509670400, -60273617564160, 989942472110592, -9102093335663328, 52815225589382256, -205567535324871720, 554121335029686996, -1048095910883365344, 1386976004335869948, -1257252902643858120, 743524335636494412, -258329167838069328, 39979514070177396],
  [0, -1001771971200, 39787115734080, -658454155661016, 6109753136464692, -35824819199116662, 141056920045442115, -384960064716576063, 737588213420203431, -988989047426685591, 908342020576009305, -544159036922636421, 191440365451426377, -29984635552633047],
  [0, 494702208000, -19737279619200, 328581074490240, -3070934072360440, 18158363399613580, -72177302864265170, 199041456253058705, -385655337799724850, 523223719096454805, -486429552734441030, 295016483264400755, -105074363902389310, 16658130862573915],
  [0, -178092794880, 7131145177728, -119282083487424, 1121331716251032, -6676165310361976, 26747163095463954, -74415809716415882, 145596926228150826, -199625310433984578, 187678069350375318, -115167811241605694, 41517187688261142, -6663252345029566],
  [0, 44155238400, -1773270869760, 29776854811392, -281271590954640, 1684256683786248, -6792864745343820, 19043256145714086, -37578006090476280, 52011442685779434, -49405726308844620, 30656695700396922, -11183080858790880, 1817250639553518],
  [0, -6745939200, 271580755680, -4575203129016, 43391955124804, -261094190337838, 1059048642245165, -2988573127738913, 5941829068415097, -8294128908102609, 7953745687228055, -4987582376604971, 1840548724675999, -302875106592253],
  [0, 479001600, -19323757440, 326433564288, -3106590708936, 18770484442996, -76512404203950, 217159251902879, -434636011301778, 611359993352823, -591412930032210, 374561522353733, -139788510734886, 23298085122481]]⟩

theorem glag13_ok : glag13.ok = true := by decide +kernel

theorem gauss_row6_ok : rowOK 13 0 glag13 gaussScale 1 Tables.gaussLegendre_row6 [(7, [])] = true := by decide +kernel

def glag15 : Lagrange := ⟨15, 43051008, 720720, [[43051008, -2142796544, 45672723072, -561888411536, 4511355576000, -25241802677000, 102301204005000, -307300103735625, 692518612500000, -1174621170937500, 1491383643750000, -1395243921093750, 932892187500000, -421595507812500, 115330078125000, -14416259765625],
  [0, 9686476800, -336832070400, 5223881635200, -48066668067600, 294054983586000, -1268580848535000, 3989058173100000, -9306650744015625, 16216926652265625, -21035863676953125, 20023364689453125, -13579411904296875, 6209563623046875, -1715534912109375, 216243896484375],
  [0, -33902668800, 1433182262400, -25218402451200, 253349105700600, -1652574223345500, 7483612933046250, -24435101156090625, 58735573021125000, -104841609685312500, 138702099473437500, -134198873402343750, 92263037343750000, -42679817578125000, 11907830566406250, -1513707275390625],
  [0, 97941043200, -4385156921600, 81979660380800, -868397834340400, 5921344763698000, -27818377271685000, 93643352752950000, -230890972233796875, 421024982268515625, -567138252540234375, 557206526830078125, -388147286337890625, 181593294873046875, -51163305908203125, 6559398193359375],
  [0, -220367347200, 10142062257600, -195754517758800, 2142086864954400, -15059675611071000, 72732693911377500, -250906685832928125, 632092334123250000, -1174483394772187500, 1608279388340625000, -1602972320167968750, 1130758620468750000, -534897058007812500, 152178038085937500, -19678194580078125],
  [0, 387846531072, -18140914471680, 357042818740608, -3990924243306000, 28670029654266000, -141393311354295000, 497451612818160000, -1276111796099765625, 2410564791713203125, -3350467753836328125, 3384471985034765625, -2416336530029296875, 1155416127099609375, -331905548583984375, 43292028076171875],
  [0, -538675737600, 25465052412800, -507817316406400, 5761085458328200, -42045622998879500, 210723998498763750, -753233818865653125, 1962008000827875000, -3760119136836562500, 5297149559264062500, -5418063944261718750, 3912829702031250000, -1890739241015625000, 548365688964843750, -72153380126953125],
  [0, 593642649600, -28275542380800, 569203779830400, -6528317460865200, 48219119294346000, -244739744854605000, 886218220537650000, -2338409886430921875, 4538458682156953125, -6471918327483984375, 6696718757244140625, -4889305446416015625, 2386833814599609375, -698857024658203125, 92768631591796875],
  [0, -519437318400, 24880234579200, -504419509479600, 5833748285164800, -43494046586991000, 223006788074070000, -816190236933946875, 2177411119884000000, -4273024034162812500, 6160618501537500000, -6443316086238281250, 4753272273750000000, -2343541786523437500, 692672449218750000, -92768631591796875],
  [0, 359117158400, -17275965907200, 352193355113600, -4100096907706800, 30798729583622000, -159227488024605000, 587983396700700000, -1583422704160171875, 3137721585670546875, -4568762291452734375, 4826021409193359375, -3595290693134765625, 1789724508837890625, -533935012939453125, 72153380126953125],
  [0, -193923265536, 9361342134144, -191690767876608, 2243490197949000, -16956165895168500, 88267451315793750, -328414596466831875, 891611422576875000, -1782032956140937500, 2618031630276562500, -2790890177857031250, 2098540975781250000, -1054401394921875000, 317474872558593750, -43292028076171875],
  [0, 80133580800, -3879250502400, 79723658851200, -937164576675600, 7119321524406000, -37276007904135000, 139588821221850000, -381648845969015625, 768598718309296875, -1138307972755078125, 1223769137677734375, -928280201748046875, 470614955712890625, -142994880615234375, 19678194580078125],
  [0, -24485260800, 1188108958400, -24491225049200, 288960002749600, -2204633480413000, 11600483422027500, -43683205500309375, 120172927124250000, -243653801954062500, 363498538528125000, -393851274222656250, 301230887343750000, -154043822460937500, 47227666992187500, -6559398193359375],
  [0, 5215795200, -253589817600, 5240822428800, -62027839364400, 474997495518000, -2510067444885000, 9497952664200000, -26271413340046875, 53588124198984375, -80477421633984375, 87828301107421875, -67698819931640625, 34909453564453125, -10797778564453125, 1513707275390625],
  [0, -691891200, 33696489600, -697922524800, 8282575337400, -63629741038500, 337497106196250, -1282522450584375, 3564620470125000, -7310527197187500, 11045132535937500, -12134595128906250, 9422211093750000, -4897683984375000, 1528123535156250, -216243896484375],
  [0, 43051008, -2099745536, 43572977536, -518315434000, 3993040142000, -21248762535000, 81052441470000, -226247662265625, 466270950234375, -708350220703125, 783033423046875, -612210498046875, 320681689453125, -100913818359375, 14416259765625]]⟩

theorem glag15_ok : glag15.ok = true := by decide +kernel

theorem gauss_row7_ok : rowOK 15 0 glag15 gaussScale 1 Tables.gaussLegendre_row7 [(8, [])] = true := by decide +kernel

def glag17 : Lagrange := ⟨17, 20922789888000, 12252240, [[20922789888000, -1223405590579200, 30967241558618880, -457577738985244032, 4467390437412122256, -30820305476704986064, 156508659310899659400, -600345882036255757584, 1767782212737810200217, -4031463885470442202353, 7139309638486925388060, -9784067489744236621036, 10269601351730652402198, -8096457694686826576902, 4637125343445901584660, -1820501060760242844348, 437950726881001816329, -48661191875666868481],
  [0, 6046686277632000, -250770548957644800, 4686433478160894720, -52570597438000315008, 397375679966097976848, -2151681723344075366080, 8652413244000720343240, -26408934760465668106696, 61937168553310790048881, -112161197494674365649040, 156520128113257221115660, -166753326610711624513184, 133108238268060927511094, -77036223207457113036080, 30513429729094636353380, -7396501165101364009112, 827240261886336764177],
  [0, -24186745110528000, 1208669529270067200, -25524440242967854080, 312002124201715341312, -2512285289933832926784, 14273848166633384012320, -59596300747016242161680, 187431283284273597392824, -450390330008583013611848, 832054446530875570219360, -1180579146578443401732800, 1275459272227568619188816, -1030255348666300913835952, 602334631394413755293120, -240672530170945311875440, 58782719785805577125048, -6617922095090694113416],
  [0, 80622483701760000, -4257328801388544000, 95202240931343001600, -1223720188945529994240, 10279930081470041125760, -60507973308572979920640, 260201518462753134671040, -838857527490771089421120, 2058328137301992464783160, -3870714727301479985962320, 5576089685594565908204720, -6103431842111918299898640, 4986083436701243557044000, -2943877508886191586413040, 1186417106389788449882640, -291967151254001210886000, 33089610475453470567080],
  [0, -211634019717120000, 11475302964910848000, -264463610764558867200, 3504428484086368198080, -30293833217056551777600, 182998598724380588982560, -805341044351132551655120, 2649799158304413643427900, -6619470659049192190626380, 12645506900574456066638480, -18470712665853812017013360, 20465313828884252349472360, -16899433899997476562975240, 10073075506767975432718960, -4093951945191398939780320, 1015072462526410876513660, -115813636664087146984780],
  [0, 440198761011609600, -24242799113874432000, 569100471612921271296, -7692127962574413915648, 67837085818048115255232, -417788479204127950929920, 1872336155679845080886752, -6264854152025718859946336, 15892219413345892240587964, -30785228973813693965746160, 45535584835087561140935008, -51027964290929235238121584, 42569118170172142210710776, -25607990951469798200339920, 10494238290829698738822944, -2621475728725925538808432, 301115455326626582160428],
  [0, -733664601686016000, 40820408464079462400, -970218823685265423360, 13296162609655658363904, -118978074090644172249664, 743619741718994083288800, -3381105706752650287429200, 11471528966429477743886088, -29485207145505373666331928, 57823204719717653918301600, -86509858870890181605598720, 97970321082856057312971312, -82524418197460407647121552, 50085802990620647861083200, -20692570736286518760228720, 5207526109766365597362696, -602230910653253164320856],
  [0, 988201300230144000, -55382577233002905600, 1328108817454755747840, -18386381693659227595776, 166346038294748477523072, -1051686209210795936377600, 4837943050021267267681600, -16605560326419598571257792, 43166079785341525920508744, -85577586801127111217784400, 129364431402690347628072880, -147939131906220660717599888, 125761325442575734629413696, -76982274951827480978428400, 32058451195377574525809680, -8127586911841383041170544, 946362859597969258218488],
  [0, -1080845172126720000, 60902807561563968000, -1470310523797979635200, 20513484160733268413280, -187188651917105275213920, 1194362570220884989004080, -5547021242457557178396080, 19225697693418118113000790, -50466811783755851690333270, 101018409953065021278844840, -154143690636923286672899240, 177877353832363099367032580, -152525391934944253627101700, 94136426073646563471945080, -39508193429237021108671480, 10089898135419525179535350, -1182953574497461572773110],
  [0, 960751264112640000, -54362672992083456000, 1319296275340556198400, -18519457278849149525760, 170156408036541358088800, -1093827634192962944795520, 5120584872459459130968240, -17894999981923623523364400, 47372928373939246838498310, -95638144176822494745772560, 147179338143501027160602520, -171268091449675911849478320, 148062288442804024090581780, -92107129772839601099599920, 38951509394179392133248840, -10020312631037321557607520, 1182953574497461572773110],
  [0, -691740910161100800, 39271786726219407360, -957064516079860970496, 13501242497898780438528, -124746963439116694433472, 806898773702131186716640, -3802698775379617161800752, 13383807495384524179877896, -35693235662498694609701944, 72608145769621791080820640, -112603151735442287572489408, 132051567768676164596811824, -115041786843628657645929296, 72110808084489267556823360, -30722409511239264984795344, 7960581701324094348543752, -946362859597969258218488],
  [0, 400180691828736000, -22781061568368230400, 557089258121698498560, -7890925297501326173184, 73250679895498970976384, -476280377421039356488960, 2257400312143739280015680, -7993833227902577599031488, 21457460947999049496410888, -43946446697810312218042480, 68633094508887808957999760, -81066083695561516262455472, 71138049524433603976499872, -44916644125925413597006160, 19275556828867099550062000, -5030399371338938196091856, 602230910653253164320856],
  [0, -183416150421504000, 10464941662450329600, -256643827894901341440, 3647700229673200698816, -33995058379130100080192, 222021405206853834385440, -1057476753029407115474160, 3764740050432169975978812, -10163586399484982685865644, 20942742175391994354917520, -32916683312383891590730160, 39138428945050713212007528, -34580640977566298791457736, 21987005585970694094083440, -9502328555636105291706240, 2497487011826726357918844, -301115455326626582160428],
  [0, 65118159912960000, -3722460113562624000, 91511751656242713600, -1304453503168219031040, 12198069811064210996160, -79970951753799396093440, 382525705838800806595040, -1368235183686714941517920, 3712651554207511284228860, -7692150183431261513485520, 12160762681142273497819520, -14548492696587166478783440, 12937207296080028157970200, -8280781099512963431997040, 3603447131084676905491840, -953759360763070622227600, 115813636664087146984780],
  [0, -17276246507520000, 989205174033408000, -24368916032790451200, 348237649293713095680, -3265928101320786475200, 21482996684875447772960, -103144939856508389323120, 370466744198462424227000, -1009830551991087478760680, 2102614509442130337162080, -3341855197170902982444160, 4020877273538430331258960, -3597262712560930438429040, 2317256059788849841120960, -1015129710987441072829520, 270556226828707788754360, -33089610475453470567080],
  [0, 3224899348070400, -184912695766794240, 4563516443699423232, -65355996866066267136, 614503649638246674304, -4053998947886115621120, 19528669214182403131584, -70400820175114830553152, 192686568858191004233208, -403004855507894353325040, 643666756036504499377936, -778561945577873238560688, 700517683358494886556672, -454013971534768664955600, 200186418530390477299248, -53721955830736222803024, 6617922095090694113416],
  [0, -377917892352000, 21696225719212800, -536293560825889920, 7695186002043462288, -72516104648585279568, 479643406483861951240, -2317316539414021774720, 8381598671152471485721, -23025117629477195787841, 48354128949990341755420, -77577518335805351706700, 94298605801712087779094, -85302405751315815749414, 55608460999507750811540, -24674086704014612135660, 6666583286966360981897, -827240261886336764177],
  [0, 20922789888000, -1202482800691200, 29764758757927680, -427812980227316352, 4039577457184805904, -26780728019520180160, 129727931291379479240, -470617950744876278344, 1297164261992933921873, -2734299623477508280480, 4405010015009417107580, -5379057474734819513456, 4890543876995832888742, -3205913817690993688160, 1431211525754907896500, -389289535005334947848, 48661191875666868481]]⟩

theorem glag17_ok : glag17.ok = true := by decide +kernel

theorem gauss_row8_ok : rowOK 17 0 glag17 gaussScale 1 Tables.gaussLegendre_row8 [(9, [])] = true := by decide +kernel

def glag19 : Lagrange := ⟨19, 6402373705728000, 232792560, [[6402373705728000, -431565146817638400, 12703584876481912320, -220251903342317531136, 2547328256400918852000, -21037684694341632986160, 129403170555014383479280, -609415264346098727892376, 2238128579960154676569450, -6486397306369829696374995, 14934195674784689850007890, -27376601105608821425579181, 39869083719796779186306100, -45799978722524891151894430, 40957162613899218330872100, -27898873301119932577214466, 13974986487351245574144450, -4850142369139549934556015, 1041273502979112415328410, -104127350297911241532841],
  [0, 2311256907767808000, -111881136753579110400, 2460252542091967249920, -32766138806829250991616, 297028863230975936731296, -1951055773268786710109136, 9644484878253244943946496, -36753697742129986834164312, 109644160265146088392449522, -258350382561732840934832277, 482587369924349058091035027, -713792970562152430904418828, 830672782165741099072544368, -751009457682404823455546238, 516356007651926171789449578, -260729116317698396374880244, 91116911897530121143421814, -19680069206305224649706949, 1978419655660313589123979],
  [0, -10400656084955136000, 602271348198179788800, -14915395823962158570240, 216102956651954322913152, -2085156664329726607399056, 14366730474825580015725888, -73731511055777855812694424, 289545741900347753240567784, -885155330091967616301677577, 2128176788324095986895242396, -4042921384608816785833014543, 6065535342277770940439741376, -7144740751171043853976716378, 6527028298616769063473695944, -4528141829419974075501614982, 2304372298179576754419557688, -810828715996119268211860989, 176183476704065820673566972, -17805776900942822302115811],
  [0, 39291367432052736000, -2399669978950179532800, 62763990520285025533440, -954180657516664193536512, 9589809345260232435659424, -68372811782526462876887568, 361119449740122339858720096, -1452891628937899740636950904, 4533748111942104226072692258, -11093282226891651414859626681, 21393704752506515982054118617, -32516737552580069202436682556, 38737228955385728917594879512, -35738686036025640521075213334, 25009095400003779596419059918, -12824447915615755449044465028, 4542988607308142911242877806, -993062539791179510498704617, 100899402438675993045322929],
  [0, -117874102296158208000, 7385643932152789094400, -198803892483182739525120, 3110739303140290053000576, -32122848838680939232419264, 234741280923789343554200256, -1267420688700370432354572864, 5199696160549264125542313432, -16507628523037403153994155148, 41009825323147269558487795992, -80156806283511394425678231828, 123285773108684887744366700208, -148422278098925284813339781112, 138217587290510668134164390448, -97528781254572835052405378472, 50384445387698112180169985784, -17967360627057749409766036476, 3951008179703944148722118904, -403597609754703972181291716],
  [0, 282897845510779699200, -17994298390401934540800, 492947348902653019281408, -7858938776014897884518400, 82693297919776948800842880, -615345018882904726336457280, 3379549183657049594090320128, -14085579738605668372600466400, 45369641678849838784886573160, -114205907558550455513335101060, 225905895041814488637715246668, -351231045933978570215893986000, 426993306327309837017398710240, -401161615781196469727952942840, 285335430154249835889025776648, -148476140646456412451531329200, 53295008468162710121557274520, -11789298600729510766348258020, 1210792829264111916543875148],
  [0, -550079144048738304000, 35337296994790184755200, -979565164934070690984960, 15821646675740680452023808, -168759467993608657828060608, 1273110811588683673116036288, -7086544037714894168238664128, 29919017895990945636968058096, -97551974662378574984428487796, 248383697337817540402456609056, -496567849083062104591865297676, 779677958362002054702005297184, -956491733557826500906030725384, 906152082282109678452701673024, -649475903567645725451647123224, 340341701654744236572229932912, -122954167113554234760614734212, 27359669545476774535237038432, -2825183268282927805269042012],
  [0, 875636188485746688000, -56647328593980989030400, 1583679602440228938577920, -25824727537182409940822016, 278295846325799242043046528, -2121895598714436036629726784, 11938707975002992234908634752, -50943094133213768408073676512, 167828978046078800466178233096, -431592082731199912460076469188, 871047315666738536334328678644, -1379956050858699485071049539728, 1707197064667713123828900330624, -1630124714407792962731766850872, 1176981587463693737137159136376, -620992852604230155100992021744, 225770937698294818698710281752, -50534669137181092095752262756, 5246768926811151638356792308],
  [0, -1149272497387542528000, 74739550519785107174400, -2102879153834368125765120, 34542475485888604342320576, -375225510874838405282665632, 2885256337520615885308538784, -16376323486000142961203205168, 70500689931540891339601099452, -234321167947642858634068792314, 607842568998203822508696939468, -1237170295171759938619673580966, 1976018927781869255625073683768, -2463744625078550908481495670276, 2370034745977397859582349202712, -1723275106927540543216361416284, 915271645429552226982323088204, -334841235236395338006323987778, 75387785106286547224810752636, -7870153390216727457535188462],
  [0, 1248592342840786944000, -81528013667522361139200, 2305341250110038996444160, -38086743606676092000211968, 416375175022159089387448512, -3223759685751434818839195488, 18430520185757110451776101632, -79939424330681017648427817936, 267719326105409430023376872124, -699793400109559028410966211526, 1435128536753146662278687818554, -2309275031492768424899538834824, 2900141389235305601409763927616, -2809401317631986341664317201284, 2056516617331235259643858599756, -1099309389901423951945236385272, 404640702746119869150945857748, -91634359063868446596213802502, 9619076365820444670320785898],
  [0, -1123733108556708249600, 73612444845909874544640, -2089846705860098821329408, 34687508880083369132908800, -381196203500469353896579680, 2968223763067501834387926720, -17072986420280872077055902128, 74524796052017768795553415200, -251235187224328659841500550110, 661133923972656588915434602200, -1365068687737946631092329094418, 2211461241472371641663666527200, -2795973451350528929416944919340, 2726380267849863384284241596880, -2008604950184145352701616388148, 1080410618490752379940972948800, -400084298151783869043951801270, 91128091886720002139881129560, -9619076365820444670320785898],
  [0, 835834543554576384000, -54897429571009746739200, 1563639411700152441308160, -26053214453423539340295168, 287554549692322134299982528, -2249799905693885111921753568, 13007660008428093489452232768, -57091829593290551880007024656, 193576153637081756254985250876, -512445074898753775024742073006, 1064537704478511855559321010046, -1735288240493333420286117119784, 2207621823555508012662921825264, -2166055563341545263382881516084, 1605618665954683970320070670564, -868876867447335700080737170392, 323657333050297883198247667332, -74145129307831274468357828142, 7870153390216727457535188462],
  [0, -510787776616685568000, 33621951665281590374400, -960269948227240928709120, 16051489682526970147771776, -177813536959920670864106688, 1396869422412728759067328704, -8112204431229448659837167232, 35775435522016142231906134872, -121915696661275541717535910236, 324458077119138441953728284888, -677739776358028141163409687684, 1111044633573032825312067300528, -1421641365091804866851913738264, 1403035941066400635140426100912, -1046129817144359198682965683656, 569427800358080609694718312824, -213344379713742091134181036812, 49153940472230789033026791096, -5246768926811151638356792308],
  [0, 253882681868648448000, -16742424211550985830400, 479284120960459148113920, -8033478453072515540514816, 89271692630180544637464192, -703764046264402783793657664, 4102834828265438608196706048, -18169583258114256112508119392, 62196238930302196220869981704, -166312397148950495301719328468, 349135522929757421881938470556, -575329380544984715361587807568, 740121029220791419454162819616, -734458144315101893715515403672, 550695403290694020208955527464, -301452285783888293772655378224, 113586454171352947827354226488, -26318812551898853764874759796, 2825183268282927805269042012],
  [0, -101034944825278464000, 6673349076073871155200, -191416770106107021480960, 3215983919800633098628608, -35834473704782555352580032, 283360196749958364799948608, -1657532681343659202831804672, 7367586588355911378351008976, -25320719874928184058226611204, 67997075147661694098086770176, -143392663643997065005592465724, 237421901873458850006414483424, -306952876341887419219078864296, 306184017759214877629131556224, -230803679513492816380195373496, 127034568957618959494673878992, -48133207459194654056291280468, 11215765155288615647985369792, -1210792829264111916543875148],
  [0, 31433093945642188800, -2078996992484730716160, 59736124119094937819136, -1005682987431921896294400, 11232497690212183460472960, -89058786367737582258918720, 522510010091097679601909376, -2330139169051549253631324000, 8036806462040413012152361320, -21665661363435459395263017780, 45877756024571331386932247556, -76296336490306716580909366800, 99099227209659092757269897280, -99333887737206688106799023640, 75260361102071130715304232216, -41642517629888322075040114800, 15864404660441133975768779640, -3717346405635431322722423700, 403597609754703972181291716],
  [0, -7367131393509888000, 487848151348928294400, -14038536642829928133120, 236770349763852464450976, -2650013992692757509975216, 21060909190397588263666416, -123892781154425977326710136, 554123849371370631876190122, -1917364509224397859042033227, 5186945945769460951135087602, -11025093974927572922308037397, 18409613589483757858905349428, -24015440135311693892492497998, 24183127855592724190010680548, -18411430726764796817467706418, 10239310783649246196700569474, -3921660708080506533016415559, 924026106543664357362431034, -100899402438675993045322929],
  [0, 1223606598230016000, -81112155096713932800, 2337224489226598141440, -39481833450816723174912, 442712627616533388813216, -3525876332188343010857808, 20790544165980189101051904, -93233520865108892588373144, 323543697638439622646767842, -878057329015601403131398221, 1872830146828178274304651083, -3138988482493392564701081676, 4111404225779133932175762768, -4158085328216460390656794734, 3180364711555636054972020762, -1777441755045975052876553268, 684313985384157109749459174, -162126284413847803066633437, 17805776900942822302115811],
  [0, -128403161542656000, 8519742107325388800, -245784391131710442240, 4157835204170785018752, -46699257315638155011984, 372628793647789142376448, -2201922082836233262825976, 9897910603058511598636344, -34439117550416895437082273, 93735899674532639282600556, -200570141376730716082413207, 337340017387050051614901856, -443515494027371461420742602, 450388774017301552157765544, -346008277627160462580404598, 194296443710458159519263048, -75185427301949701188897141, 17909904251240733543648652, -1978419655660313589123979],
  [0, 6402373705728000, -425162773111910400, 12278422103370001920, -207973481238947529216, 2339354775161971322784, -18698329919179661663376, 110704840635834721815904, -498710423710264006076472, 1739418156249890670492978, -4746979150119939025882017, 10187216524664750824125873, -17189384580944070601453308, 22679699138852708584852792, -23120279583672182567041638, 17836883030227035763830462, -10061990270892896813384004, 3912996216458348760760446, -937146152681201173795569, 104127350297911241532841]]⟩

theorem glag19_ok : glag19.ok = true := by decide +kernel

theorem gauss_row9_ok : rowOK 19 0 glag19 gaussScale 1 Tables.gaussLegendre_row9 [(10, [])] = true := by decide +kernel

/-- The rows of the table. -/
theorem gauss_good {k : ℕ} (hk : k < 10) :
    ∃ row, Tables.gaussLegendre[k]? = some row ∧ GoodRule (2 * k + 1) 0 1 (ofTable gaussScale row) := by
  have hS : 0 < gaussScale := by norm_num [gaussScale]
  interval_cases k
  · exact ⟨_, rfl, rowOK_sound glag1_ok hS gauss_row0_ok⟩
  · exact ⟨_, rfl, rowOK_sound glag3_ok hS gauss_row1_ok⟩
  · exact ⟨_, rfl, rowOK_sound glag5_ok hS gauss_row2_ok⟩
  · exact ⟨_, rfl, rowOK_sound glag7_ok hS gauss_row3_ok⟩
  · exact ⟨_, rfl, rowOK_sound glag9_ok hS gauss_row4_ok⟩
  · exact ⟨_, rfl, rowOK_sound glag11_ok hS gauss_row5_ok⟩
  · exact ⟨_, rfl, rowOK_sound glag13_ok hS gauss_row6_ok⟩
  · exact ⟨_, rfl, rowOK_sound glag15_ok hS gauss_row7_ok⟩
  · exact ⟨_, rfl, rowOK_sound glag17_ok hS gauss_row8_ok⟩
  · exact ⟨_, rfl, rowOK_sound glag19_ok hS gauss_row9_ok⟩

end QuESo.Rules
