import Verif.Proofs.RuleCerts.Lagrange

/-! # Certificates of the rules `ggqOptimal` for degree 4 (generated) -/
namespace QuESo.Rules

def cert_Optimal_4_1 : List (Nat × List Int) :=
  [(5, [])]

def cert_Optimal_4_2 : List (Nat × List Int) :=
  [(4, [1, -15470053837925, 0]), (4, [])]

def cert_Optimal_4_3 : List (Nat × List Int) :=
  [(4, [554465053711302, -9682565794911, -1915720771400]), (3, [-554465053711302, -9682565794911, 1915720771400]), (4, [])]

def cert_Optimal_4_4 : List (Nat × List Int) :=
  [(4, [740073080039676, -4369767078361, -2630474968719]), (3, [0, -17839915050582, 0]), (3, [-740073080039676, -4369767078361, 2630474968719]), (4, [])]

def cert_Optimal_4_5 : List (Nat × List Int) :=
  [(4, [781017815174171, -2939913324070, -2793431547135]), (3, [521751293746341, -12704629385108, -2083540342594]), (3, [-521751293746338, -12704629385106, 2083540342595]), (3, [-781017815174166, -2939913324070, 2793431547135]), (4, [])]

def cert_Optimal_4_6 : List (Nat × List Int) :=
  [(4, [789136670504775, -2643999040227, -2826023471578]), (3, [705469988943149, -8069282058242, -2867893903038]), (3, [-1, -17912845083471, 0]), (3, [-705469988943149, -8069282058242, 2867893903038]), (3, [-789136670504781, -2643999040227, 2826023471578]), (4, [])]

def cert_Optimal_4_7 : List (Nat × List Int) :=
  [(4, [790717231363252, -2585898984139, -2832379788562]), (3, [746342988005211, -6784013160575, -3049118837949]), (3, [520775487551622, -12794518776891, -2088519989322]), (3, [-520775487551635, -12794518776891, 2088519989322]), (3, [-746342988005210, -6784013160575, 3049118837949]), (3, [-790717231363248, -2585898984139, 2832379788562]), (4, [])]

def cert_Optimal_4_8 : List (Nat × List Int) :=
  [(4, [791023216727686, -2574632560831, -2833610761355]), (3, [754466751012406, -6516195491757, -3085497651212]), (3, [704437462802611, -8179315941441, -2874934975019]), (3, [0, -17914970246660, 0]), (3, [-704437462802610, -8179315941441, 2874934975019]), (3, [-754466751012407, -6516195491757, 3085497651212]), (3, [-791023216727686, -2574632560831, 2833610761355]), (4, [])]

def cert_Optimal_4_9 : List (Nat × List Int) :=
  [(4, [791082519238351, -2572448332717, -2833849350499]), (3, [756049233002646, -6463533278657, -3092598751852]), (3, [745308020687921, -6898388894580, -3056704920098]), (3, [520747059550631, -12797137290196, -2088665038011]), (3, [-520747059550641, -12797137290196, 2088665038011]), (3, [-745308020687919, -6898388894580, 3056704920098]), (3, [-756049233002659, -6463533278656, 3092598751853]), (3, [-791082519238350, -2572448332717, 2833849350500]), (4, [])]

def cert_Optimal_4_10 : List (Nat × List Int) :=
  [(4, [791093990132034, -2572025810842, -2833895501448]), (3, [756355634186029, -6453318106419, -3093974229829]), (3, [753431858584362, -6631417642392, -3093196938025]), (3, [704407377960931, -8182521705064, -2875140094354]), (3, [0, -17915032124572, 0]), (3, [-704407377960931, -8182521705064, 2875140094354]), (3, [-753431858584365, -6631417642392, 3093196938025]), (3, [-756355634186031, -6453318106419, 3093974229829]), (3, [-791093990132025, -2572025810841, 2833895501448]), (4, [])]

def cert_Optimal_4_11 : List (Nat × List Int) :=
  [(4, [791096212935247, -2571943934545, -2833904444495]), (3, [756415019203067, -6451337554900, -3094240838529]), (3, [755014383370977, -6578919384464, -3100320314510]), (3, [745277863649858, -6901721280092, -3056925925271]), (3, [520746231802377, -12797213534197, -2088669261426]), (3, [-520746231802376, -12797213534197, 2088669261426]), (3, [-745277863649859, -6901721280092, 3056925925271]), (3, [-755014383370977, -6578919384464, 3100320314510]), (3, [-756415019203066, -6451337554900, 3094240838529]), (3, [-791096212935234, -2571943934545, 2833904444495]), (4, [])]

def cert_Optimal_4_12 : List (Nat × List Int) :=
  [(4, [791096642879555, -2571928097637, -2833906174299]), (3, [756426506136162, -6450954427518, -3094292409839]), (3, [755320794121918, -6568735914599, -3101700115026]), (3, [753401703509974, -6634774715031, -3093421243081]), (3, [704406501961543, -8182615049052, -2875146066912]), (3, [-7, -17915033926274, 0]), (3, [-704406501961543, -8182615049052, 2875146066912]), (3, [-753401703509970, -6634774715032, 3093421243081]), (3, [-755320794121931, -6568735914599, 3101700115026]), (3, [-756426506136176, -6450954427519, 3094292409839]), (3, [-791096642879556, -2571928097637, 2833906174299]), (4, [])]

def cert_Optimal_4_13 : List (Nat × List Int) :=
  [(4, [791096726192698, -2571925028814, -2833906509495]), (3, [756428732050767, -6450880184885, -3094302403252]), (3, [755380181049231, -6566761505591, -3101967561889]), (3, [754984229500694, -6582281239276, -3100545268911]), (3, [745276985546509, -6901818311203, -3056932360398]), (3, [520746207700766, -12797215754200, -2088669384400]), (3, [-520746207700754, -12797215754200, 2088669384400]), (3, [-745276985546494, -6901818311202, 3056932360398]), (3, [-754984229500666, -6582281239275, 3100545268911]), (3, [-755380181049234, -6566761505591, 3101967561889]), (3, [-756428732050754, -6450880184884, 3094302403252]), (3, [-791096726192685, -2571925028814, 2833906509495]), (4, [])]

def cert_Optimal_4_14 : List (Nat × List Int) :=
  [(4, [791096742307475, -2571924435229, -2833906574330]), (3, [756429162597022, -6450865824508, -3094304336223]), (3, [755391668354177, -6566379566286, -3102019295341]), (3, [755290640522078, -6572098694098, -3101925195431]), (3, [753400825463440, -6634872465013, -3093427774296]), (3, [704406476454977, -8182617766958, -2875146240816]), (3, [-2, -17915033978734, 0]), (3, [-704406476454992, -8182617766958, 2875146240816]), (3, [-753400825463452, -6634872465014, 3093427774296]), (3, [-755290640522092, -6572098694098, 3101925195431]), (3, [-755391668354191, -6566379566287, 3102019295341]), (3, [-756429162597019, -6450865824509, 3094304336223]), (3, [-791096742307475, -2571924435230, 2833906574330]), (4, [])]

def cert_Optimal_4_15 : List (Nat × List Int) :=
  [(4, [791096745430132, -2571924320207, -2833906586893]), (3, [756429246026820, -6450863041802, -3094304710788]), (3, [755393894340923, -6566305553872, -3102029320174]), (3, [755350027503440, -6570124464254, -3102192666726]), (3, [754983351489147, -6582379128511, -3100551819034]), (3, [745276959978677, -6901821136468, -3056932547771]), (3, [520746206998986, -12797215818840, -2088669387981]), (3, [-520746206998981, -12797215818842, 2088669387980]), (3, [-745276959978677, -6901821136468, 3056932547771]), (3, [-754983351489147, -6582379128511, 3100551819034]), (3, [-755350027503457, -6570124464254, 3102192666726]), (3, [-755393894340923, -6566305553872, 3102029320174]), (3, [-756429246026820, -6450863041802, 3094304710788]), (3, [-791096745430130, -2571924320207, 2833906586893]), (4, [])]

def cert_Optimal_4_16 : List (Nat × List Int) :=
  [(4, [791096746034128, -2571924297958, -2833906589323]), (3, [756429262164152, -6450862503560, -3094304783238]), (3, [755394324901147, -6566291238026, -3102031259223]), (3, [755361514818903, -6569742559602, -3102244404905]), (3, [755289762518415, -6572196610260, -3101931749222]), (3, [753400799897282, -6634875311210, -3093427964466]), (3, [704406475712305, -8182617846095, -2875146245879]), (3, [0, -17915033980261, 0]), (3, [-704406475712301, -8182617846095, 2875146245879]), (3, [-753400799897285, -6634875311210, 3093427964466]), (3, [-755289762518416, -6572196610260, 3101931749222]), (3, [-755361514818901, -6569742559602, 3102244404905]), (3, [-755394324901129, -6566291238026, 3102031259223]), (3, [-756429262164134, -6450862503559, 3094304783238]), (3, [-791096746034128, -2571924297958, 2833906589323]), (4, [])]

def cert_Optimal_4_17 : List (Nat × List Int) :=
  [(4, [791096746151177, -2571924293647, -2833906589794]), (3, [756429265291192, -6450862399261, -3094304797277]), (3, [755394408333631, -6566288463949, -3102031634966]), (3, [755363740807698, -6569668553904, -3102254430654]), (3, [755349149501331, -6570222385633, -3102199221229]), (3, [754983325923992, -6582381978762, -3100552009754]), (3, [745276959234222, -6901821218731, -3056932553226]), (3, [520746206978563, -12797215820722, -2088669388085]), (3, [-520746206978564, -12797215820723, 2088669388085]), (3, [-745276959234224, -6901821218731, 3056932553226]), (3, [-754983325924011, -6582381978763, 3100552009754]), (3, [-755349149501352, -6570222385633, 3102199221229]), (3, [-755363740807698, -6569668553904, 3102254430654]), (3, [-755394408333650, -6566288463949, 3102031634966]), (3, [-756429265291192, -6450862399261, 3094304797277]), (3, [-791096746151176, -2571924293648, 2833906589794]), (4, [])]

def cert_Optimal_4_18 : List (Nat × List Int) :=
  [(4, [791096746173801, -2571924292813, -2833906589885]), (3, [756429265896022, -6450862379086, -3094304799992]), (3, [755394424471500, -6566287927375, -3102031707643]), (3, [755364171368311, -6569654239356, -3102256369880]), (3, [755360636817109, -6569840481990, -3102250959545]), (3, [755289736953478, -6572199461295, -3101931940050]), (3, [753400799152871, -6634875394083, -3093427970003]), (3, [704406475690683, -8182617848399, -2875146246027]), (3, [-1, -17915033980306, 0]), (3, [-704406475690701, -8182617848400, 2875146246027]), (3, [-753400799152869, -6634875394083, 3093427970003]), (3, [-755289736953499, -6572199461295, 3101931940050]), (3, [-755360636817107, -6569840481991, 3102250959545]), (3, [-755364171368309, -6569654239357, 3102256369880]), (3, [-755394424471497, -6566287927375, 3102031707643]), (3, [-756429265896020, -6450862379087, 3094304799992]), (3, [-791096746173846, -2571924292814, 2833906589885]), (4, [])]

def cert_Optimal_4_19 : List (Nat × List Int) :=
  [(4, [791096746178201, -2571924292652, -2833906589903]), (3, [756429266013236, -6450862375177, -3094304800519]), (3, [755394427598630, -6566287823401, -3102031721727]), (3, [755364254800877, -6569651465530, -3102256745657]), (3, [755362862805958, -6569766476487, -3102260985321]), (3, [755349123936441, -6570225236819, -3102199412077]), (3, [754983325179607, -6582382061753, -3100552015308]), (3, [745276959212535, -6901821221126, -3056932553385]), (3, [520746206977962, -12797215820777, -2088669388088]), (3, [-520746206977964, -12797215820777, 2088669388088]), (3, [-745276959212532, -6901821221126, 3056932553385]), (3, [-754983325179628, -6582382061753, 3100552015308]), (3, [-755349123936442, -6570225236819, 3102199412077]), (3, [-755362862805957, -6569766476487, 3102260985321]), (3, [-755364254800898, -6569651465531, 3102256745657]), (3, [-755394427598628, -6566287823400, 3102031721727]), (3, [-756429266013257, -6450862375178, 3094304800519]), (3, [-791096746178199, -2571924292652, 2833906589903]), (4, [])]

def cert_Optimal_4_20 : List (Nat × List Int) :=
  [(4, [791096746179036, -2571924292620, -2833906589906]), (3, [756429266035905, -6450862374421, -3094304800620]), (3, [755394428203501, -6566287803288, -3102031724451]), (3, [755364270938754, -6569650929006, -3102256818341]), (3, [755363293366577, -6569752161978, -3102262924553]), (3, [755360611252241, -6569843333207, -3102251150397]), (3, [755289736209112, -6572199544309, -3101931945606]), (3, [753400799131189, -6634875396496, -3093427970164]), (3, [704406475690044, -8182617848466, -2875146246031]), (3, [10, -17915033980307, 0]), (3, [-704406475690044, -8182617848466, 2875146246031]), (3, [-753400799131193, -6634875396496, 3093427970164]), (3, [-755289736209092, -6572199544308, 3101931945606]), (3, [-755360611252244, -6569843333207, 3102251150397]), (3, [-755363293366556, -6569752161977, 3102262924553]), (3, [-755364270938753, -6569650929005, 3102256818341]), (3, [-755394428203481, -6566287803288, 3102031724451]), (3, [-756429266035878, -6450862374421, 3094304800620]), (3, [-791096746179016, -2571924292620, 2833906589906]), (4, [])]

def cert_Optimal_4_21 : List (Nat × List Int) :=
  [(4, [791096746179214, -2571924292614, -2833906589907]), (3, [756429266040306, -6450862374275, -3094304800640]), (3, [755394428320713, -6566287799391, -3102031724978]), (3, [755364274065898, -6569650825040, -3102256832426]), (3, [755363376799143, -6569749388159, -3102263300330]), (3, [755362837241089, -6569769327709, -3102261176174]), (3, [755349123192099, -6570225319838, -3102199417634]), (3, [754983325157925, -6582382064169, -3100552015469]), (3, [745276959211906, -6901821221196, -3056932553390]), (3, [520746206977939, -12797215820779, -2088669388088]), (3, [-520746206977962, -12797215820779, 2088669388088]), (3, [-745276959211903, -6901821221196, 3056932553390]), (3, [-754983325157927, -6582382064169, 3100552015469]), (3, [-755349123192095, -6570225319838, 3102199417634]), (3, [-755362837241112, -6569769327710, 3102261176174]), (3, [-755363376799144, -6569749388160, 3102263300330]), (3, [-755364274065922, -6569650825040, 3102256832426]), (3, [-755394428320734, -6566287799392, 3102031724978]), (3, [-756429266040303, -6450862374275, 3094304800640]), (3, [-791096746179215, -2571924292615, 2833906589907]), (4, [])]

def cert_Optimal_4_22 : List (Nat × List Int) :=
  [(4, [791096746179252, -2571924292613, -2833906589907]), (3, [756429266041151, -6450862374247, -3094304800644]), (3, [755394428343371, -6566287798637, -3102031725081]), (3, [755364274670766, -6569650804930, -3102256835150]), (3, [755363392937036, -6569748851636, -3102263373015]), (3, [755363267801713, -6569755013201, -3102263115406]), (3, [755360610507880, -6569843416226, -3102251155954]), (3, [755289736187441, -6572199546726, -3101931945768]), (3, [753400799130557, -6634875396566, -3093427970169]), (3, [704406475690054, -8182617848469, -2875146246031]), (3, [3, -17915033980307, 0]), (3, [-704406475690055, -8182617848469, 2875146246031]), (3, [-753400799130558, -6634875396566, 3093427970169]), (3, [-755289736187444, -6572199546725, 3101931945768]), (3, [-755360610507855, -6569843416226, 3102251155954]), (3, [-755363267801716, -6569755013200, 3102263115406]), (3, [-755363392937058, -6569748851636, 3102263373015]), (3, [-755364274670748, -6569650804929, 3102256835150]), (3, [-755394428343378, -6566287798637, 3102031725081]), (3, [-756429266041150, -6450862374247, 3094304800644]), (3, [-791096746179230, -2571924292613, 2833906589907]), (4, [])]

def cert_Optimal_4_23 : List (Nat × List Int) :=
  [(4, [791096746179257, -2571924292613, -2833906589907]), (3, [756429266041324, -6450862374241, -3094304800645]), (3, [755394428347771, -6566287798491, -3102031725100]), (3, [755364274787962, -6569650801033, -3102256835678]), (3, [755363396064162, -6569748747670, -3102263387099]), (3, [755363351234293, -6569752239383, -3102263491183]), (3, [755362836496719, -6569769410728, -3102261181731]), (3, [755349123170427, -6570225322255, -3102199417796]), (3, [754983325157309, -6582382064240, -3100552015474]), (3, [745276959211891, -6901821221197, -3056932553390]), (3, [520746206977936, -12797215820778, -2088669388088]), (3, [-520746206977937, -12797215820778, 2088669388088]), (3, [-745276959211889, -6901821221198, 3056932553390]), (3, [-754983325157304, -6582382064240, 3100552015474]), (3, [-755349123170427, -6570225322255, 3102199417796]), (3, [-755362836496745, -6569769410728, 3102261181731]), (3, [-755363351234284, -6569752239384, 3102263491183]), (3, [-755363396064164, -6569748747670, 3102263387099]), (3, [-755364274787966, -6569650801033, 3102256835678]), (3, [-755394428347751, -6566287798490, 3102031725100]), (3, [-756429266041319, -6450862374241, 3094304800645]), (3, [-791096746179227, -2571924292613, 2833906589907]), (4, [])]

def cert_Optimal_4_24 : List (Nat × List Int) :=
  [(4, [791096746179237, -2571924292613, -2833906589907]), (3, [756429266041333, -6450862374240, -3094304800645]), (3, [755394428348631, -6566287798463, -3102031725104]), (3, [755364274810648, -6569650800280, -3102256835780]), (3, [755363396669046, -6569748727561, -3102263389824]), (3, [755363367372170, -6569751702859, -3102263563868]), (3, [755363267057330, -6569755096220, -3102263120963]), (3, [755360610486192, -6569843418643, -3102251156116]), (3, [755289736186818, -6572199546797, -3101931945773]), (3, [753400799130540, -6634875396568, -3093427970169]), (3, [704406475690047, -8182617848469, -2875146246031]), (3, [-1, -17915033980307, 0]), (3, [-704406475690046, -8182617848469, 2875146246031]), (3, [-753400799130566, -6634875396569, 3093427970169]), (3, [-755289736186818, -6572199546797, 3101931945773]), (3, [-755360610486217, -6569843418644, 3102251156116]), (3, [-755363267057356, -6569755096221, 3102263120963]), (3, [-755363367372163, -6569751702859, 3102263563868]), (3, [-755363396669013, -6569748727561, 3102263389824]), (3, [-755364274810645, -6569650800280, 3102256835780]), (3, [-755394428348604, -6566287798463, 3102031725104]), (3, [-756429266041340, -6450862374240, 3094304800645]), (3, [-791096746179233, -2571924292613, 2833906589907]), (4, [])]

def cert_Optimal_4_25 : List (Nat × List Int) :=
  [(4, [791096746179254, -2571924292613, -2833906589907]), (3, [756429266041362, -6450862374240, -3094304800645]), (3, [755394428348789, -6566287798458, -3102031725105]), (3, [755364274815026, -6569650800133, -3102256835800]), (3, [755363396786262, -6569748723666, -3102263390352]), (3, [755363370499300, -6569751598894, -3102263577952]), (3, [755363350489926, -6569752322402, -3102263496740]), (3, [755362836475043, -6569769413146, -3102261181893]), (3, [755349123169777, -6570225322325, -3102199417800]), (3, [754983325157292, -6582382064242, -3100552015474]), (3, [745276959211875, -6901821221197, -3056932553390]), (3, [520746206977951, -12797215820779, -2088669388088]), (3, [-520746206977949, -12797215820779, 2088669388088]), (3, [-745276959211875, -6901821221197, 3056932553390]), (3, [-754983325157292, -6582382064242, 3100552015474]), (3, [-755349123169805, -6570225322326, 3102199417801]), (3, [-755362836475010, -6569769413145, 3102261181893]), (3, [-755363350489929, -6569752322401, 3102263496740]), (3, [-755363370499298, -6569751598895, 3102263577952]), (3, [-755363396786233, -6569748723665, 3102263390351]), (3, [-755364274815053, -6569650800134, 3102256835800]), (3, [-755394428348816, -6566287798459, 3102031725105]), (3, [-756429266041358, -6450862374240, 3094304800645]), (3, [-791096746179225, -2571924292613, 2833906589907]), (4, [])]

def cert_Optimal_4_26 : List (Nat × List Int) :=
  [(4, [791096746179248, -2571924292613, -2833906589907]), (3, [756429266041364, -6450862374240, -3094304800645]), (3, [755394428348807, -6566287798457, -3102031725105]), (3, [755364274815878, -6569650800105, -3102256835804]), (3, [755363396808917, -6569748722910, -3102263390454]), (3, [755363371104179, -6569751578784, -3102263580677]), (3, [755363366627780, -6569751785878, -3102263569425]), (3, [755363267035651, -6569755098637, -3102263121125]), (3, [755360610485569, -6569843418714, -3102251156121]), (3, [755289736186809, -6572199546799, -3101931945773]), (3, [753400799130540, -6634875396568, -3093427970169]), (3, [704406475690054, -8182617848469, -2875146246031]), (3, [0, -17915033980307, 0]), (3, [-704406475690052, -8182617848469, 2875146246031]), (3, [-753400799130511, -6634875396567, 3093427970169]), (3, [-755289736186750, -6572199546797, 3101931945773]), (3, [-755360610485544, -6569843418713, 3102251156121]), (3, [-755363267035656, -6569755098637, 3102263121125]), (3, [-755363366627813, -6569751785879, 3102263569425]), (3, [-755363371104146, -6569751578784, 3102263580677]), (3, [-755363396808916, -6569748722910, 3102263390454]), (3, [-755364274815883, -6569650800104, 3102256835804]), (3, [-755394428348782, -6566287798455, 3102031725105]), (3, [-756429266041366, -6450862374240, 3094304800645]), (3, [-791096746179222, -2571924292613, 2833906589907]), (4, [])]

def cert_Optimal_4_27 : List (Nat × List Int) :=
  [(4, [791096746179243, -2571924292613, -2833906589907]), (3, [756429266041368, -6450862374240, -3094304800645]), (3, [755394428348821, -6566287798456, -3102031725105]), (3, [755364274816032, -6569650800099, -3102256835804]), (3, [755363396813298, -6569748722764, -3102263390473]), (3, [755363371221370, -6569751574887, -3102263581205]), (3, [755363369754936, -6569751681913, -3102263583510]), (3, [755363350468229, -6569752324819, -3102263496902]), (3, [755362836474400, -6569769413216, -3102261181898]), (3, [755349123169769, -6570225322327, -3102199417801]), (3, [754983325157283, -6582382064242, -3100552015474]), (3, [745276959211878, -6901821221197, -3056932553390]), (3, [520746206977920, -12797215820778, -2088669388088]), (3, [-520746206977976, -12797215820780, 2088669388088]), (3, [-745276959211904, -6901821221198, 3056932553390]), (3, [-754983325157279, -6582382064242, 3100552015474]), (3, [-755349123169734, -6570225322327, 3102199417801]), (3, [-755362836474433, -6569769413217, 3102261181898]), (3, [-755363350468255, -6569752324820, 3102263496902]), (3, [-755363369754937, -6569751681913, 3102263583510]), (3, [-755363371221397, -6569751574888, 3102263581205]), (3, [-755363396813330, -6569748722765, 3102263390473]), (3, [-755364274816093, -6569650800101, 3102256835804]), (3, [-755394428348849, -6566287798457, 3102031725105]), (3, [-756429266041363, -6450862374241, 3094304800645]), (3, [-791096746179235, -2571924292614, 2833906589907]), (4, [])]

def cert_Optimal_4_28 : List (Nat × List Int) :=
  [(4, [791096746179252, -2571924292613, -2833906589907]), (3, [756429266041341, -6450862374239, -3094304800645]), (3, [755394428348826, -6566287798456, -3102031725105]), (3, [755364274816088, -6569650800099, -3102256835804]), (3, [755363396814158, -6569748722736, -3102263390477]), (3, [755363371244045, -6569751574133, -3102263581307]), (3, [755363370359797, -6569751661803, -3102263586234]), (3, [755363366606116, -6569751788296, -3102263569587]), (3, [755363267035021, -6569755098707, -3102263121129]), (3, [755360610485544, -6569843418716, -3102251156121]), (3, [755289736186783, -6572199546798, -3101931945773]), (3, [753400799130528, -6634875396568, -3093427970169]), (3, [704406475690017, -8182617848468, -2875146246031]), (3, [-15, -17915033980307, 0]), (3, [-704406475690081, -8182617848470, 2875146246031]), (3, [-753400799130524, -6634875396568, 3093427970169]), (3, [-755289736186782, -6572199546798, 3101931945773]), (3, [-755360610485573, -6569843418717, 3102251156121]), (3, [-755363267035051, -6569755098708, 3102263121129]), (3, [-755363366606143, -6569751788297, 3102263569587]), (3, [-755363370359792, -6569751661803, 3102263586234]), (3, [-755363371244049, -6569751574134, 3102263581307]), (3, [-755363396814183, -6569748722737, 3102263390477]), (3, [-755364274816054, -6569650800099, 3102256835804]), (3, [-755394428348857, -6566287798457, 3102031725105]), (3, [-756429266041403, -6450862374241, 3094304800645]), (3, [-791096746179248, -2571924292614, 2833906589907]), (4, [])]

def cert_Optimal_4_29 : List (Nat × List Int) :=
  [(4, [791096746179240, -2571924292613, -2833906589907]), (3, [756429266041349, -6450862374239, -3094304800645]), (3, [755394428348819, -6566287798456, -3102031725105]), (3, [755364274816089, -6569650800099, -3102256835804]), (3, [755363396814314, -6569748722730, -3102263390478]), (3, [755363371248456, -6569751573988, -3102263581327]), (3, [755363370476997, -6569751657906, -3102263586762]), (3, [755363369733254, -6569751684330, -3102263583671]), (3, [755363350467595, -6569752324889, -3102263496907]), (3, [755362836474392, -6569769413218, -3102261181898]), (3, [755349123169774, -6570225322328, -3102199417801]), (3, [754983325157286, -6582382064242, -3100552015474]), (3, [745276959211883, -6901821221197, -3056932553390]), (3, [520746206977937, -12797215820779, -2088669388088]), (3, [-520746206977941, -12797215820778, 2088669388088]), (3, [-745276959211885, -6901821221198, 3056932553390]), (3, [-754983325157280, -6582382064242, 3100552015474]), (3, [-755349123169744, -6570225322327, 3102199417801]), (3, [-755362836474387, -6569769413218, 3102261181898]), (3, [-755363350467626, -6569752324890, 3102263496907]), (3, [-755363369733295, -6569751684331, 3102263583671]), (3, [-755363370476997, -6569751657906, 3102263586762]), (3, [-755363371248422, -6569751573987, 3102263581326]), (3, [-755363396814340, -6569748722731, 3102263390478]), (3, [-755364274816122, -6569650800099, 3102256835805]), (3, [-755394428348820, -6566287798456, 3102031725105]), (3, [-756429266041380, -6450862374241, 3094304800645]), (3, [-791096746179269, -2571924292614, 2833906589907]), (4, [])]

def cert_Optimal_4_30 : List (Nat × List Int) :=
  [(4, [791096746179230, -2571924292613, -2833906589907]), (3, [756429266041338, -6450862374239, -3094304800645]), (3, [755394428348809, -6566287798456, -3102031725105]), (3, [755364274816104, -6569650800099, -3102256835804]), (3, [755363396814360, -6569748722730, -3102263390478]), (3, [755363371249278, -6569751573959, -3102263581330]), (3, [755363370499677, -6569751657153, -3102263586864]), (3, [755363370338116, -6569751664220, -3102263586396]), (3, [755363366605498, -6569751788367, -3102263569592]), (3, [755363267035012, -6569755098711, -3102263121130]), (3, [755360610485529, -6569843418716, -3102251156121]), (3, [755289736186801, -6572199546799, -3101931945773]), (3, [753400799130529, -6634875396568, -3093427970169]), (3, [704406475690057, -8182617848469, -2875146246031]), (3, [-1, -17915033980307, 0]), (3, [-704406475690057, -8182617848470, 2875146246031]), (3, [-753400799130557, -6634875396569, 3093427970169]), (3, [-755289736186801, -6572199546799, 3101931945773]), (3, [-755360610485565, -6569843418717, 3102251156121]), (3, [-755363267035042, -6569755098711, 3102263121129]), (3, [-755363366605457, -6569751788366, 3102263569591]), (3, [-755363370338118, -6569751664220, 3102263586396]), (3, [-755363370499672, -6569751657153, 3102263586864]), (3, [-755363371249277, -6569751573959, 3102263581330]), (3, [-755363396814390, -6569748722731, 3102263390478]), (3, [-755364274816103, -6569650800099, 3102256835804]), (3, [-755394428348810, -6566287798456, 3102031725105]), (3, [-756429266041368, -6450862374240, 3094304800645]), (3, [-791096746179268, -2571924292614, 2833906589907]), (4, [])]

def cert_Optimal_4_31 : List (Nat × List Int) :=
  [(4, [791096746179259, -2571924292613, -2833906589907]), (3, [756429266041367, -6450862374240, -3094304800645]), (3, [755394428348828, -6566287798456, -3102031725105]), (3, [755364274816072, -6569650800098, -3102256835804]), (3, [755363396814365, -6569748722729, -3102263390478]), (3, [755363371249462, -6569751573954, -3102263581331]), (3, [755363370504061, -6569751657007, -3102263586883]), (3, [755363370455307, -6569751660322, -3102263586923]), (3, [755363369732627, -6569751684400, -3102263583676]), (3, [755363350467577, -6569752324891, -3102263496907]), (3, [755362836474369, -6569769413217, -3102261181898]), (3, [755349123169748, -6570225322327, -3102199417801]), (3, [754983325157297, -6582382064242, -3100552015474]), (3, [745276959211882, -6901821221197, -3056932553390]), (3, [520746206977938, -12797215820779, -2088669388088]), (3, [-520746206977940, -12797215820778, 2088669388088]), (3, [-745276959211874, -6901821221198, 3056932553390]), (3, [-754983325157292, -6582382064242, 3100552015474]), (3, [-755349123169749, -6570225322327, 3102199417801]), (3, [-755362836474403, -6569769413219, 3102261181898]), (3, [-755363350467606, -6569752324893, 3102263496907]), (3, [-755363369732658, -6569751684402, 3102263583676]), (3, [-755363370455378, -6569751660325, 3102263586924]), (3, [-755363370504094, -6569751657008, 3102263586884]), (3, [-755363371249491, -6569751573955, 3102263581331]), (3, [-755363396814398, -6569748722730, 3102263390478]), (3, [-755364274816098, -6569650800099, 3102256835804]), (3, [-755394428348821, -6566287798457, 3102031725105]), (3, [-756429266041365, -6450862374241, 3094304800645]), (3, [-791096746179253, -2571924292614, 2833906589907]), (4, [])]

def cert_Optimal_4_32 : List (Nat × List Int) :=
  [(4, [791096746179243, -2571924292613, -2833906589907]), (3, [756429266041352, -6450862374239, -3094304800645]), (3, [755394428348837, -6566287798457, -3102031725105]), (3, [755364274816113, -6569650800099, -3102256835805]), (3, [755363396814353, -6569748722729, -3102263390478]), (3, [755363371249492, -6569751573953, -3102263581331]), (3, [755363370504933, -6569751656978, -3102263586888]), (3, [755363370478001, -6569751659571, -3102263587026]), (3, [755363370337494, -6569751664291, -3102263586400]), (3, [755363366605455, -6569751788368, -3102263569591]), (3, [755363267035021, -6569755098709, -3102263121129]), (3, [755360610485519, -6569843418715, -3102251156121]), (3, [755289736186790, -6572199546799, -3101931945773]), (3, [753400799130539, -6634875396568, -3093427970169]), (3, [704406475690062, -8182617848469, -2875146246031]), (3, [0, -17915033980308, 0]), (3, [-704406475690062, -8182617848469, 2875146246031]), (3, [-753400799130538, -6634875396568, 3093427970169]), (3, [-755289736186755, -6572199546798, 3101931945773]), (3, [-755360610485558, -6569843418717, 3102251156121]), (3, [-755363267035022, -6569755098711, 3102263121130]), (3, [-755363366605459, -6569751788367, 3102263569592]), (3, [-755363370337493, -6569751664291, 3102263586400]), (3, [-755363370478002, -6569751659570, 3102263587026]), (3, [-755363370504932, -6569751656979, 3102263586887]), (3, [-755363371249490, -6569751573953, 3102263581331]), (3, [-755363396814386, -6569748722730, 3102263390478]), (3, [-755364274816107, -6569650800099, 3102256835804]), (3, [-755394428348804, -6566287798456, 3102031725105]), (3, [-756429266041386, -6450862374241, 3094304800645]), (3, [-791096746179236, -2571924292613, 2833906589907]), (4, [])]

def cert_Optimal_4_33 : List (Nat × List Int) :=
  [(4, [791096746179260, -2571924292613, -2833906589907]), (3, [756429266041337, -6450862374239, -3094304800645]), (3, [755394428348826, -6566287798457, -3102031725105]), (3, [755364274816095, -6569650800098, -3102256835804]), (3, [755363396814361, -6569748722729, -3102263390478]), (3, [755363371249519, -6569751573953, -3102263581331]), (3, [755363370505073, -6569751656973, -3102263586888]), (3, [755363370482418, -6569751659425, -3102263587045]), (3, [755363370454689, -6569751660394, -3102263586928]), (3, [755363369732607, -6569751684403, -3102263583676]), (3, [755363350467603, -6569752324892, -3102263496907]), (3, [755362836474377, -6569769413218, -3102261181898]), (3, [755349123169774, -6570225322328, -3102199417801]), (3, [754983325157296, -6582382064242, -3100552015474]), (3, [745276959211867, -6901821221197, -3056932553390]), (3, [520746206977954, -12797215820779, -2088669388088]), (3, [-520746206977949, -12797215820779, 2088669388088]), (3, [-745276959211867, -6901821221197, 3056932553390]), (3, [-754983325157259, -6582382064241, 3100552015474]), (3, [-755349123169737, -6570225322327, 3102199417801]), (3, [-755362836474377, -6569769413218, 3102261181898]), (3, [-755363350467564, -6569752324891, 3102263496907]), (3, [-755363369732650, -6569751684403, 3102263583676]), (3, [-755363370454655, -6569751660393, 3102263586928]), (3, [-755363370482345, -6569751659423, 3102263587045]), (3, [-755363370505080, -6569751656972, 3102263586888]), (3, [-755363371249487, -6569751573952, 3102263581331]), (3, [-755363396814364, -6569748722729, 3102263390478]), (3, [-755364274816090, -6569650800099, 3102256835804]), (3, [-755394428348792, -6566287798455, 3102031725105]), (3, [-756429266041377, -6450862374240, 3094304800645]), (3, [-791096746179263, -2571924292614, 2833906589907]), (4, [])]

def cert_Optimal_4_34 : List (Nat × List Int) :=
  [(4, [791096746179263, -2571924292613, -2833906589907]), (3, [756429266041343, -6450862374239, -3094304800645]), (3, [755394428348841, -6566287798457, -3102031725105]), (3, [755364274816109, -6569650800099, -3102256835805]), (3, [755363396814353, -6569748722729, -3102263390478]), (3, [755363371249487, -6569751573952, -3102263581331]), (3, [755363370505113, -6569751656972, -3102263586888]), (3, [755363370483241, -6569751659396, -3102263587049]), (3, [755363370477372, -6569751659641, -3102263587030]), (3, [755363370337476, -6569751664292, -3102263586400]), (3, [755363366605442, -6569751788367, -3102263569591]), (3, [755363267035035, -6569755098709, -3102263121129]), (3, [755360610485539, -6569843418716, -3102251156121]), (3, [755289736186796, -6572199546798, -3101931945773]), (3, [753400799130539, -6634875396568, -3093427970169]), (3, [704406475690041, -8182617848469, -2875146246031]), (3, [-20, -17915033980309, 0]), (3, [-704406475690080, -8182617848470, 2875146246031]), (3, [-753400799130527, -6634875396568, 3093427970169]), (3, [-755289736186756, -6572199546797, 3101931945773]), (3, [-755360610485544, -6569843418716, 3102251156121]), (3, [-755363267035031, -6569755098712, 3102263121130]), (3, [-755363366605433, -6569751788366, 3102263569592]), (3, [-755363370337476, -6569751664292, 3102263586400]), (3, [-755363370477377, -6569751659640, 3102263587030]), (3, [-755363370483237, -6569751659396, 3102263587049]), (3, [-755363370505111, -6569751656972, 3102263586888]), (3, [-755363371249525, -6569751573953, 3102263581331]), (3, [-755363396814351, -6569748722729, 3102263390478]), (3, [-755364274816108, -6569650800099, 3102256835804]), (3, [-755394428348847, -6566287798457, 3102031725105]), (3, [-756429266041378, -6450862374241, 3094304800645]), (3, [-791096746179217, -2571924292613, 2833906589907]), (4, [])]

def cert_Optimal_4_35 : List (Nat × List Int) :=
  [(4, [791096746179236, -2571924292613, -2833906589907]), (3, [756429266041367, -6450862374240, -3094304800645]), (3, [755394428348835, -6566287798457, -3102031725105]), (3, [755364274816101, -6569650800099, -3102256835804]), (3, [755363396814370, -6569748722729, -3102263390478]), (3, [755363371249484, -6569751573952, -3102263581331]), (3, [755363370505106, -6569751656972, -3102263586888]), (3, [755363370483413, -6569751659390, -3102263587050]), (3, [755363370481738, -6569751659494, -3102263587050]), (3, [755363370454659, -6569751660395, -3102263586928]), (3, [755363369732580, -6569751684402, -3102263583676]), (3, [755363350467591, -6569752324892, -3102263496907]), (3, [755362836474386, -6569769413218, -3102261181898]), (3, [755349123169748, -6570225322326, -3102199417801]), (3, [754983325157302, -6582382064242, -3100552015474]), (3, [745276959211894, -6901821221198, -3056932553390]), (3, [520746206977939, -12797215820778, -2088669388088]), (3, [-520746206977940, -12797215820778, 2088669388088]), (3, [-745276959211889, -6901821221198, 3056932553390]), (3, [-754983325157260, -6582382064242, 3100552015474]), (3, [-755349123169781, -6570225322328, 3102199417801]), (3, [-755362836474381, -6569769413218, 3102261181898]), (3, [-755363350467552, -6569752324891, 3102263496907]), (3, [-755363369732585, -6569751684402, 3102263583676]), (3, [-755363370454694, -6569751660397, 3102263586928]), (3, [-755363370481779, -6569751659495, 3102263587050]), (3, [-755363370483405, -6569751659391, 3102263587050]), (3, [-755363370505188, -6569751656974, 3102263586888]), (3, [-755363371249523, -6569751573953, 3102263581331]), (3, [-755363396814406, -6569748722731, 3102263390478]), (3, [-755364274816136, -6569650800100, 3102256835805]), (3, [-755394428348873, -6566287798458, 3102031725105]), (3, [-756429266041376, -6450862374240, 3094304800645]), (3, [-791096746179273, -2571924292615, 2833906589907]), (4, [])]

def cert_Optimal_4_36 : List (Nat × List Int) :=
  [(4, [791096746179250, -2571924292613, -2833906589907]), (3, [756429266041364, -6450862374240, -3094304800645]), (3, [755394428348840, -6566287798457, -3102031725105]), (3, [755364274816091, -6569650800099, -3102256835804]), (3, [755363396814340, -6569748722729, -3102263390478]), (3, [755363371249500, -6569751573953, -3102263581331]), (3, [755363370505099, -6569751656971, -3102263586888]), (3, [755363370483413, -6569751659389, -3102263587050]), (3, [755363370482627, -6569751659467, -3102263587054]), (3, [755363370477335, -6569751659642, -3102263587030]), (3, [755363370337462, -6569751664292, -3102263586400]), (3, [755363366605438, -6569751788367, -3102263569591]), (3, [755363267035015, -6569755098709, -3102263121129]), (3, [755360610485525, -6569843418715, -3102251156121]), (3, [755289736186762, -6572199546797, -3101931945773]), (3, [753400799130523, -6634875396568, -3093427970169]), (3, [704406475690034, -8182617848468, -2875146246031]), (3, [-19, -17915033980308, 0]), (3, [-704406475690072, -8182617848470, 2875146246031]), (3, [-753400799130561, -6634875396570, 3093427970169]), (3, [-755289736186796, -6572199546799, 3101931945773]), (3, [-755360610485562, -6569843418717, 3102251156121]), (3, [-755363267035056, -6569755098712, 3102263121130]), (3, [-755363366605477, -6569751788368, 3102263569592]), (3, [-755363370337466, -6569751664294, 3102263586401]), (3, [-755363370477412, -6569751659644, 3102263587031]), (3, [-755363370482625, -6569751659467, 3102263587054]), (3, [-755363370483448, -6569751659390, 3102263587050]), (3, [-755363370505141, -6569751656973, 3102263586888]), (3, [-755363371249501, -6569751573953, 3102263581331]), (3, [-755363396814420, -6569748722731, 3102263390478]), (3, [-755364274816087, -6569650800099, 3102256835804]), (3, [-755394428348873, -6566287798458, 3102031725105]), (3, [-756429266041365, -6450862374240, 3094304800645]), (3, [-791096746179252, -2571924292613, 2833906589907]), (4, [])]

def cert_Optimal_4_37 : List (Nat × List Int) :=
  [(4, [791096746179242, -2571924292613, -2833906589907]), (3, [756429266041334, -6450862374239, -3094304800645]), (3, [755394428348820, -6566287798456, -3102031725105]), (3, [755364274816091, -6569650800099, -3102256835804]), (3, [755363396814369, -6569748722729, -3102263390478]), (3, [755363371249478, -6569751573952, -3102263581331]), (3, [755363370505114, -6569751656972, -3102263586888]), (3, [755363370483458, -6569751659389, -3102263587050]), (3, [755363370482796, -6569751659462, -3102263587055]), (3, [755363370481751, -6569751659497, -3102263587050]), (3, [755363370454693, -6569751660397, -3102263586928]), (3, [755363369732619, -6569751684403, -3102263583676]), (3, [755363350467595, -6569752324892, -3102263496907]), (3, [755362836474402, -6569769413219, -3102261181898]), (3, [755349123169772, -6570225322328, -3102199417801]), (3, [754983325157307, -6582382064243, -3100552015474]), (3, [745276959211887, -6901821221198, -3056932553390]), (3, [520746206977933, -12797215820778, -2088669388088]), (3, [-520746206977895, -12797215820777, 2088669388088]), (3, [-745276959211885, -6901821221198, 3056932553390]), (3, [-754983325157266, -6582382064242, 3100552015474]), (3, [-755349123169731, -6570225322326, 3102199417801]), (3, [-755362836474361, -6569769413217, 3102261181898]), (3, [-755363350467554, -6569752324891, 3102263496907]), (3, [-755363369732577, -6569751684402, 3102263583676]), (3, [-755363370454698, -6569751660397, 3102263586928]), (3, [-755363370481714, -6569751659495, 3102263587050]), (3, [-755363370482752, -6569751659460, 3102263587055]), (3, [-755363370483424, -6569751659388, 3102263587050]), (3, [-755363370505112, -6569751656971, 3102263586888]), (3, [-755363371249477, -6569751573952, 3102263581331]), (3, [-755363396814290, -6569748722727, 3102263390478]), (3, [-755364274816055, -6569650800097, 3102256835804]), (3, [-755394428348859, -6566287798457, 3102031725105]), (3, [-756429266041342, -6450862374238, 3094304800645]), (3, [-791096746179247, -2571924292613, 2833906589907]), (4, [])]

def cert_Optimal_4_38 : List (Nat × List Int) :=
  [(4, [791096746179235, -2571924292613, -2833906589907]), (3, [756429266041356, -6450862374240, -3094304800645]), (3, [755394428348841, -6566287798457, -3102031725105]), (3, [755364274816107, -6569650800099, -3102256835804]), (3, [755363396814361, -6569748722729, -3102263390478]), (3, [755363371249476, -6569751573952, -3102263581331]), (3, [755363370505112, -6569751656972, -3102263586888]), (3, [755363370483453, -6569751659389, -3102263587050]), (3, [755363370482797, -6569751659459, -3102263587055]), (3, [755363370482580, -6569751659468, -3102263587054]), (3, [755363370477318, -6569751659641, -3102263587030]), (3, [755363370337482, -6569751664292, -3102263586400]), (3, [755363366605449, -6569751788368, -3102263569591]), (3, [755363267035023, -6569755098709, -3102263121129]), (3, [755360610485524, -6569843418715, -3102251156121]), (3, [755289736186762, -6572199546798, -3101931945773]), (3, [753400799130530, -6634875396568, -3093427970169]), (3, [704406475690050, -8182617848469, -2875146246031]), (3, [-3, -17915033980307, 0]), (3, [-704406475690051, -8182617848469, 2875146246031]), (3, [-753400799130576, -6634875396570, 3093427970169]), (3, [-755289736186765, -6572199546798, 3101931945773]), (3, [-755360610485605, -6569843418718, 3102251156121]), (3, [-755363267035024, -6569755098711, 3102263121129]), (3, [-755363366605446, -6569751788369, 3102263569592]), (3, [-755363370337519, -6569751664295, 3102263586401]), (3, [-755363370477398, -6569751659644, 3102263587031]), (3, [-755363370482613, -6569751659469, 3102263587054]), (3, [-755363370482839, -6569751659461, 3102263587055]), (3, [-755363370483447, -6569751659390, 3102263587050]), (3, [-755363370505161, -6569751656973, 3102263586888]), (3, [-755363371249557, -6569751573954, 3102263581331]), (3, [-755363396814355, -6569748722730, 3102263390478]), (3, [-755364274816064, -6569650800098, 3102256835804]), (3, [-755394428348871, -6566287798458, 3102031725105]), (3, [-756429266041402, -6450862374241, 3094304800645]), (3, [-791096746179234, -2571924292614, 2833906589907]), (4, [])]

def cert_Optimal_4_39 : List (Nat × List Int) :=
  [(4, [791096746179234, -2571924292613, -2833906589907]), (3, [756429266041361, -6450862374240, -3094304800645]), (3, [755394428348810, -6566287798456, -3102031725105]), (3, [755364274816101, -6569650800098, -3102256835804]), (3, [755363396814341, -6569748722728, -3102263390478]), (3, [755363371249488, -6569751573952, -3102263581331]), (3, [755363370505130, -6569751656972, -3102263586888]), (3, [755363370483453, -6569751659389, -3102263587050]), (3, [755363370482820, -6569751659459, -3102263587055]), (3, [755363370482745, -6569751659462, -3102263587055]), (3, [755363370481750, -6569751659496, -3102263587050]), (3, [755363370454654, -6569751660396, -3102263586928]), (3, [755363369732628, -6569751684403, -3102263583676]), (3, [755363350467579, -6569752324891, -3102263496907]), (3, [755362836474389, -6569769413218, -3102261181898]), (3, [755349123169777, -6570225322328, -3102199417801]), (3, [754983325157241, -6582382064241, -3100552015474]), (3, [745276959211877, -6901821221197, -3056932553390]), (3, [520746206977906, -12797215820777, -2088669388088]), (3, [-520746206977948, -12797215820778, 2088669388088]), (3, [-745276959211877, -6901821221198, 3056932553390]), (3, [-754983325157281, -6582382064243, 3100552015474]), (3, [-755349123169774, -6570225322328, 3102199417801]), (3, [-755362836474392, -6569769413218, 3102261181898]), (3, [-755363350467572, -6569752324892, 3102263496907]), (3, [-755363369732623, -6569751684403, 3102263583676]), (3, [-755363370454700, -6569751660397, 3102263586928]), (3, [-755363370481751, -6569751659497, 3102263587050]), (3, [-755363370482740, -6569751659463, 3102263587055]), (3, [-755363370482818, -6569751659460, 3102263587055]), (3, [-755363370483455, -6569751659389, 3102263587050]), (3, [-755363370505130, -6569751656972, 3102263586888]), (3, [-755363371249529, -6569751573954, 3102263581331]), (3, [-755363396814326, -6569748722729, 3102263390478]), (3, [-755364274816060, -6569650800098, 3102256835804]), (3, [-755394428348896, -6566287798458, 3102031725105]), (3, [-756429266041368, -6450862374240, 3094304800645]), (3, [-791096746179282, -2571924292615, 2833906589907]), (4, [])]

def cert_Optimal_4_40 : List (Nat × List Int) :=
  [(4, [791096746179269, -2571924292613, -2833906589907]), (3, [756429266041336, -6450862374239, -3094304800645]), (3, [755394428348812, -6566287798456, -3102031725105]), (3, [755364274816081, -6569650800098, -3102256835804]), (3, [755363396814350, -6569748722729, -3102263390478]), (3, [755363371249496, -6569751573952, -3102263581331]), (3, [755363370505124, -6569751656972, -3102263586888]), (3, [755363370483465, -6569751659389, -3102263587050]), (3, [755363370482843, -6569751659460, -3102263587055]), (3, [755363370482791, -6569751659462, -3102263587055]), (3, [755363370482610, -6569751659469, -3102263587054]), (3, [755363370477336, -6569751659643, -3102263587030]), (3, [755363370337479, -6569751664293, -3102263586400]), (3, [755363366605465, -6569751788368, -3102263569591]), (3, [755363267035024, -6569755098709, -3102263121129]), (3, [755360610485540, -6569843418716, -3102251156121]), (3, [755289736186799, -6572199546799, -3101931945773]), (3, [753400799130521, -6634875396568, -3093427970169]), (3, [704406475690033, -8182617848469, -2875146246031]), (3, [1, -17915033980308, 0]), (3, [-704406475690035, -8182617848469, 2875146246031]), (3, [-753400799130526, -6634875396567, 3093427970169]), (3, [-755289736186756, -6572199546797, 3101931945773]), (3, [-755360610485496, -6569843418714, 3102251156121]), (3, [-755363267035023, -6569755098711, 3102263121130]), (3, [-755363366605424, -6569751788364, 3102263569592]), (3, [-755363370337480, -6569751664292, 3102263586400]), (3, [-755363370477341, -6569751659642, 3102263587030]), (3, [-755363370482569, -6569751659467, 3102263587054]), (3, [-755363370482790, -6569751659461, 3102263587055]), (3, [-755363370482802, -6569751659458, 3102263587055]), (3, [-755363370483427, -6569751659388, 3102263587050]), (3, [-755363370505082, -6569751656970, 3102263586888]), (3, [-755363371249498, -6569751573952, 3102263581331]), (3, [-755363396814308, -6569748722728, 3102263390478]), (3, [-755364274816039, -6569650800097, 3102256835804]), (3, [-755394428348813, -6566287798456, 3102031725105]), (3, [-756429266041389, -6450862374240, 3094304800645]), (3, [-791096746179226, -2571924292613, 2833906589907]), (4, [])]

def cert_Optimal_4_41 : List (Nat × List Int) :=
  [(4, [791096746179270, -2571924292613, -2833906589907]), (3, [756429266041374, -6450862374240, -3094304800645]), (3, [755394428348853, -6566287798457, -3102031725105]), (3, [755364274816115, -6569650800099, -3102256835805]), (3, [755363396814365, -6569748722729, -3102263390478]), (3, [755363371249513, -6569751573953, -3102263581331]), (3, [755363370505098, -6569751656971, -3102263586888]), (3, [755363370483457, -6569751659389, -3102263587050]), (3, [755363370482829, -6569751659460, -3102263587055]), (3, [755363370482814, -6569751659462, -3102263587055]), (3, [755363370482787, -6569751659463, -3102263587055]), (3, [755363370481721, -6569751659496, -3102263587050]), (3, [755363370454684, -6569751660397, -3102263586928]), (3, [755363369732616, -6569751684403, -3102263583676]), (3, [755363350467607, -6569752324892, -3102263496907]), (3, [755362836474388, -6569769413219, -3102261181898]), (3, [755349123169785, -6570225322328, -3102199417801]), (3, [754983325157268, -6582382064242, -3100552015474]), (3, [745276959211898, -6901821221199, -3056932553390]), (3, [520746206977946, -12797215820779, -2088669388088]), (3, [-520746206977905, -12797215820777, 2088669388088]), (3, [-745276959211858, -6901821221197, 3056932553390]), (3, [-754983325157269, -6582382064242, 3100552015474]), (3, [-755349123169783, -6570225322328, 3102199417801]), (3, [-755362836474388, -6569769413218, 3102261181898]), (3, [-755363350467559, -6569752324891, 3102263496907]), (3, [-755363369732574, -6569751684401, 3102263583676]), (3, [-755363370454690, -6569751660396, 3102263586928]), (3, [-755363370481728, -6569751659496, 3102263587050]), (3, [-755363370482689, -6569751659461, 3102263587055]), (3, [-755363370482769, -6569751659461, 3102263587055]), (3, [-755363370482835, -6569751659460, 3102263587055]), (3, [-755363370483462, -6569751659389, 3102263587050]), (3, [-755363370505054, -6569751656969, 3102263586888]), (3, [-755363371249517, -6569751573953, 3102263581331]), (3, [-755363396814312, -6569748722728, 3102263390478]), (3, [-755364274816075, -6569650800098, 3102256835804]), (3, [-755394428348851, -6566287798457, 3102031725105]), (3, [-756429266041381, -6450862374240, 3094304800645]), (3, [-791096746179229, -2571924292613, 2833906589907]), (4, [])]

def cert_Optimal_4 : List (Nat × List (Nat × List Int)) :=
  [(1, cert_Optimal_4_1), (2, cert_Optimal_4_2), (3, cert_Optimal_4_3), (4, cert_Optimal_4_4), (5, cert_Optimal_4_5), (6, cert_Optimal_4_6), (7, cert_Optimal_4_7), (8, cert_Optimal_4_8), (9, cert_Optimal_4_9), (10, cert_Optimal_4_10), (11, cert_Optimal_4_11), (12, cert_Optimal_4_12), (13, cert_Optimal_4_13), (14, cert_Optimal_4_14), (15, cert_Optimal_4_15), (16, cert_Optimal_4_16), (17, cert_Optimal_4_17), (18, cert_Optimal_4_18), (19, cert_Optimal_4_19), (20, cert_Optimal_4_20), (21, cert_Optimal_4_21), (22, cert_Optimal_4_22), (23, cert_Optimal_4_23), (24, cert_Optimal_4_24), (25, cert_Optimal_4_25), (26, cert_Optimal_4_26), (27, cert_Optimal_4_27), (28, cert_Optimal_4_28), (29, cert_Optimal_4_29), (30, cert_Optimal_4_30), (31, cert_Optimal_4_31), (32, cert_Optimal_4_32), (33, cert_Optimal_4_33), (34, cert_Optimal_4_34), (35, cert_Optimal_4_35), (36, cert_Optimal_4_36), (37, cert_Optimal_4_37), (38, cert_Optimal_4_38), (39, cert_Optimal_4_39), (40, cert_Optimal_4_40), (41, cert_Optimal_4_41)]

theorem cert_Optimal_4_1_ok : tableOK 4 .ggqOptimal 8 2 lag8 Tables.S_8_2_precomputed [(1, cert_Optimal_4_1)] = true := by decide +kernel
theorem cert_Optimal_4_2_ok : tableOK 4 .ggqOptimal 8 2 lag8 Tables.S_8_2_precomputed [(2, cert_Optimal_4_2)] = true := by decide +kernel
theorem cert_Optimal_4_3_ok : tableOK 4 .ggqOptimal 8 2 lag8 Tables.S_8_2_precomputed [(3, cert_Optimal_4_3)] = true := by decide +kernel
theorem cert_Optimal_4_4_ok : tableOK 4 .ggqOptimal 8 2 lag8 Tables.S_8_2_precomputed [(4, cert_Optimal_4_4)] = true := by decide +kernel
theorem cert_Optimal_4_5_ok : tableOK 4 .ggqOptimal 8 2 lag8 Tables.S_8_2_precomputed [(5, cert_Optimal_4_5)] = true := by decide +kernel
theorem cert_Optimal_4_6_ok : tableOK 4 .ggqOptimal 8 2 lag8 Tables.S_8_2_precomputed [(6, cert_Optimal_4_6)] = true := by decide +kernel
theorem cert_Optimal_4_7_ok : tableOK 4 .ggqOptimal 8 2 lag8 Tables.S_8_2_precomputed [(7, cert_Optimal_4_7)] = true := by decide +kernel
theorem cert_Optimal_4_8_ok : tableOK 4 .ggqOptimal 8 2 lag8 Tables.S_8_2_precomputed [(8, cert_Optimal_4_8)] = true := by decide +kernel
theorem cert_Optimal_4_9_ok : tableOK 4 .ggqOptimal 8 2 lag8 Tables.S_8_2_precomputed [(9, cert_Optimal_4_9)] = true := by decide +kernel
theorem cert_Optimal_4_10_ok : tableOK 4 .ggqOptimal 8 2 lag8 Tables.S_8_2_precomputed [(10, cert_Optimal_4_10)] = true := by decide +kernel
theorem cert_Optimal_4_11_ok : tableOK 4 .ggqOptimal 8 2 lag8 Tables.S_8_2_precomputed [(11, cert_Optimal_4_11)] = true := by decide +kernel
theorem cert_Optimal_4_12_ok : tableOK 4 .ggqOptimal 8 2 lag8 Tables.S_8_2_precomputed [(12, cert_Optimal_4_12)] = true := by decide +kernel
theorem cert_Optimal_4_13_ok : tableOK 4 .ggqOptimal 8 2 lag8 Tables.S_8_2_precomputed [(13, cert_Optimal_4_13)] = true := by decide +kernel
theorem cert_Optimal_4_14_ok : tableOK 4 .ggqOptimal 8 2 lag8 Tables.S_8_2_precomputed [(14, cert_Optimal_4_14)] = true := by decide +kernel
theorem cert_Optimal_4_15_ok : tableOK 4 .ggqOptimal 8 2 lag8 Tables.S_8_2_precomputed [(15, cert_Optimal_4_15)] = true := by decide +kernel
theorem cert_Optimal_4_16_ok : tableOK 4 .ggqOptimal 8 2 lag8 Tables.S_8_2_precomputed [(16, cert_Optimal_4_16)] = true := by decide +kernel
theorem cert_Optimal_4_17_ok : tableOK 4 .ggqOptimal 8 2 lag8 Tables.S_8_2_precomputed [(17, cert_Optimal_4_17)] = true := by decide +kernel
theorem cert_Optimal_4_18_ok : tableOK 4 .ggqOptimal 8 2 lag8 Tables.S_8_2_precomputed [(18, cert_Optimal_4_18)] = true := by decide +kernel
theorem cert_Optimal_4_19_ok : tableOK 4 .ggqOptimal 8 2 lag8 Tables.S_8_2_precomputed [(19, cert_Optimal_4_19)] = true := by decide +kernel
theorem cert_Optimal_4_20_ok : tableOK 4 .ggqOptimal 8 2 lag8 Tables.S_8_2_precomputed [(20, cert_Optimal_4_20)] = true := by decide +kernel
theorem cert_Optimal_4_21_ok : tableOK 4 .ggqOptimal 8 2 lag8 Tables.S_8_2_precomputed [(21, cert_Optimal_4_21)] = true := by decide +kernel
theorem cert_Optimal_4_22_ok : tableOK 4 .ggqOptimal 8 2 lag8 Tables.S_8_2_precomputed [(22, cert_Optimal_4_22)] = true := by decide +kernel
theorem cert_Optimal_4_23_ok : tableOK 4 .ggqOptimal 8 2 lag8 Tables.S_8_2_precomputed [(23, cert_Optimal_4_23)] = true := by decide +kernel
theorem cert_Optimal_4_24_ok : tableOK 4 .ggqOptimal 8 2 lag8 Tables.S_8_2_precomputed [(24, cert_Optimal_4_24)] = true := by decide +kernel
theorem cert_Optimal_4_25_ok : tableOK 4 .ggqOptimal 8 2 lag8 Tables.S_8_2_precomputed [(25, cert_Optimal_4_25)] = true := by decide +kernel
theorem cert_Optimal_4_26_ok : tableOK 4 .ggqOptimal 8 2 lag8 Tables.S_8_2_precomputed [(26, cert_Optimal_4_26)] = true := by decide +kernel
theorem cert_Optimal_4_27_ok : tableOK 4 .ggqOptimal 8 2 lag8 Tables.S_8_2_precomputed [(27, cert_Optimal_4_27)] = true := by decide +kernel
theorem cert_Optimal_4_28_ok : tableOK 4 .ggqOptimal 8 2 lag8 Tables.S_8_2_precomputed [(28, cert_Optimal_4_28)] = true := by decide +kernel
theorem cert_Optimal_4_29_ok : tableOK 4 .ggqOptimal 8 2 lag8 Tables.S_8_2_precomputed [(29, cert_Optimal_4_29)] = true := by decide +kernel
theorem cert_Optimal_4_30_ok : tableOK 4 .ggqOptimal 8 2 lag8 Tables.S_8_2_precomputed [(30, cert_Optimal_4_30)] = true := by decide +kernel
theorem cert_Optimal_4_31_ok : tableOK 4 .ggqOptimal 8 2 lag8 Tables.S_8_2_precomputed [(31, cert_Optimal_4_31)] = true := by decide +kernel
theorem cert_Optimal_4_32_ok : tableOK 4 .ggqOptimal 8 2 lag8 Tables.S_8_2_precomputed [(32, cert_Optimal_4_32)] = true := by decide +kernel
theorem cert_Optimal_4_33_ok : tableOK 4 .ggqOptimal 8 2 lag8 Tables.S_8_2_precomputed [(33, cert_Optimal_4_33)] = true := by decide +kernel
theorem cert_Optimal_4_34_ok : tableOK 4 .ggqOptimal 8 2 lag8 Tables.S_8_2_precomputed [(34, cert_Optimal_4_34)] = true := by decide +kernel
theorem cert_Optimal_4_35_ok : tableOK 4 .ggqOptimal 8 2 lag8 Tables.S_8_2_precomputed [(35, cert_Optimal_4_35)] = true := by decide +kernel
theorem cert_Optimal_4_36_ok : tableOK 4 .ggqOptimal 8 2 lag8 Tables.S_8_2_precomputed [(36, cert_Optimal_4_36)] = true := by decide +kernel
theorem cert_Optimal_4_37_ok : tableOK 4 .ggqOptimal 8 2 lag8 Tables.S_8_2_precomputed [(37, cert_Optimal_4_37)] = true := by decide +kernel
theorem cert_Optimal_4_38_ok : tableOK 4 .ggqOptimal 8 2 lag8 Tables.S_8_2_precomputed [(38, cert_Optimal_4_38)] = true := by decide +kernel
theorem cert_Optimal_4_39_ok : tableOK 4 .ggqOptimal 8 2 lag8 Tables.S_8_2_precomputed [(39, cert_Optimal_4_39)] = true := by decide +kernel
theorem cert_Optimal_4_40_ok : tableOK 4 .ggqOptimal 8 2 lag8 Tables.S_8_2_precomputed [(40, cert_Optimal_4_40)] = true := by decide +kernel
theorem cert_Optimal_4_41_ok : tableOK 4 .ggqOptimal 8 2 lag8 Tables.S_8_2_precomputed [(41, cert_Optimal_4_41)] = true := by decide +kernel

theorem cert_Optimal_4_ok : tableOK 4 .ggqOptimal 8 2 lag8 Tables.S_8_2_precomputed cert_Optimal_4 = true :=
  tableOK_cons cert_Optimal_4_1_ok (tableOK_cons cert_Optimal_4_2_ok (tableOK_cons cert_Optimal_4_3_ok (tableOK_cons cert_Optimal_4_4_ok (tableOK_cons cert_Optimal_4_5_ok (tableOK_cons cert_Optimal_4_6_ok (tableOK_cons cert_Optimal_4_7_ok (tableOK_cons cert_Optimal_4_8_ok (tableOK_cons cert_Optimal_4_9_ok (tableOK_cons cert_Optimal_4_10_ok (tableOK_cons cert_Optimal_4_11_ok (tableOK_cons cert_Optimal_4_12_ok (tableOK_cons cert_Optimal_4_13_ok (tableOK_cons cert_Optimal_4_14_ok (tableOK_cons cert_Optimal_4_15_ok (tableOK_cons cert_Optimal_4_16_ok (tableOK_cons cert_Optimal_4_17_ok (tableOK_cons cert_Optimal_4_18_ok (tableOK_cons cert_Optimal_4_19_ok (tableOK_cons cert_Optimal_4_20_ok (tableOK_cons cert_Optimal_4_21_ok (tableOK_cons cert_Optimal_4_22_ok (tableOK_cons cert_Optimal_4_23_ok (tableOK_cons cert_Optimal_4_24_ok (tableOK_cons cert_Optimal_4_25_ok (tableOK_cons cert_Optimal_4_26_ok (tableOK_cons cert_Optimal_4_27_ok (tableOK_cons cert_Optimal_4_28_ok (tableOK_cons cert_Optimal_4_29_ok (tableOK_cons cert_Optimal_4_30_ok (tableOK_cons cert_Optimal_4_31_ok (tableOK_cons cert_Optimal_4_32_ok (tableOK_cons cert_Optimal_4_33_ok (tableOK_cons cert_Optimal_4_34_ok (tableOK_cons cert_Optimal_4_35_ok (tableOK_cons cert_Optimal_4_36_ok (tableOK_cons cert_Optimal_4_37_ok (tableOK_cons cert_Optimal_4_38_ok (tableOK_cons cert_Optimal_4_39_ok (tableOK_cons cert_Optimal_4_40_ok (tableOK_cons cert_Optimal_4_41_ok (rfl)))))))))))))))))))))))))))))))))))))))))

def class_Optimal_4_0 : Cert where
  spA := [(4, [1582193492358500, -5143848585226, -5667813179814]), (3, [1512858532082705, -12901724748479, -6188609601289]), (3, [1510788856697652, -13132575596913, -6204063450210]), (3, [1510728549632185, -13139301600197, -6204513671609]), (3, [1510726793628720, -13139497445458, -6204526780956]), (3, [1510726742498995, -13139503147905, -6204527162663]), (3, [1510726741010237, -13139503313943, -6204527173777]), (3, [1510726740966904, -13139503318778, -6204527174100]), (3, [1510726740965641, -13139503318919, -6204527174110]), (3, [1510726740965597, -13139503318923, -6204527174110])]
  spP := [(3, [1510726740965597, -13139503318923, -6204527174110])]
  spC := [(3, [1510726740965603, -13139503318924, -6204527174110]), (3, [1510726740965186, -13139503318936, -6204527174108]), (3, [1510726740954698, -13139503319285, -6204527174061]), (3, [1510726740674947, -13139503328586, -6204527172801]), (3, [1510726733210937, -13139503576737, -6204527139183]), (3, [1510726534070031, -13139510197420, -6204526242259]), (3, [1510721220971079, -13139686837431, -6204502312242]), (3, [1510579472373573, -13144399093597, -6203863891546]), (3, [1506801598261082, -13269750793137, -6186855940338]), (3, [1408812951380077, -16365235696938, -5750292492062]), (3, [0, -35830067960615, 0]), (3, [-1408812951380077, -16365235696938, 5750292492062]), (3, [-1506801598261082, -13269750793137, 6186855940338]), (3, [-1510579472373573, -13144399093597, 6203863891546]), (3, [-1510721220971079, -13139686837431, 6204502312242]), (3, [-1510726534070031, -13139510197420, 6204526242259]), (3, [-1510726733210937, -13139503576737, 6204527139183]), (3, [-1510726740674947, -13139503328586, 6204527172801]), (3, [-1510726740954698, -13139503319285, 6204527174061]), (3, [-1510726740965186, -13139503318936, 6204527174108]), (3, [-1510726740965603, -13139503318924, 6204527174110]), (3, [-1510726740965597, -13139503318923, 6204527174110])]
  spP' := [(3, [-1510726740965597, -13139503318923, 6204527174110])]
  spA' := [(3, [-1510726740965641, -13139503318919, 6204527174110]), (3, [-1510726740966904, -13139503318778, 6204527174100]), (3, [-1510726741010237, -13139503313943, 6204527173777]), (3, [-1510726742498995, -13139503147905, 6204527162663]), (3, [-1510726793628720, -13139497445458, 6204526780956]), (3, [-1510728549632185, -13139301600197, 6204513671609]), (3, [-1510788856697652, -13132575596913, 6204063450210]), (3, [-1512858532082705, -12901724748479, 6188609601289]), (3, [-1582193492358500, -5143848585226, 5667813179814]), (4, [])]
  lA := [1510726740965597, -13139503318923, -6204527174110]
  lC := [-1510726740965597, -13139503318923, 6204527174110]

theorem class_Optimal_4_0_ok : classData 4 .ggqOptimal 8 2 lag8 ((Tables.S_8_2_base_even)[0]!) ((Tables.S_8_2_base_even)[1]!) ((Tables.S_8_2_base_even)[2]!) 10 1 42 class_Optimal_4_0 = true := by decide +kernel

def class_Optimal_4_1 : Cert where
  spA := [(4, [1582193492358500, -5143848585226, -5667813179814]), (3, [1512858532082705, -12901724748479, -6188609601289]), (3, [1510788856697652, -13132575596913, -6204063450210]), (3, [1510728549632185, -13139301600197, -6204513671609]), (3, [1510726793628720, -13139497445458, -6204526780956]), (3, [1510726742498995, -13139503147905, -6204527162663]), (3, [1510726741010237, -13139503313943, -6204527173777]), (3, [1510726740966904, -13139503318778, -6204527174100]), (3, [1510726740965641, -13139503318919, -6204527174110]), (3, [1510726740965597, -13139503318923, -6204527174110])]
  spP := [(3, [1510726740965597, -13139503318923, -6204527174110])]
  spC := [(3, [1510726740965605, -13139503318923, -6204527174110]), (3, [1510726740965528, -13139503318926, -6204527174110]), (3, [1510726740963475, -13139503318993, -6204527174100]), (3, [1510726740909355, -13139503320793, -6204527173857]), (3, [1510726739465220, -13139503368805, -6204527167352]), (3, [1510726700935182, -13139504649784, -6204526993814]), (3, [1510725672948769, -13139538826436, -6204522363796]), (3, [1510698246339517, -13140450644655, -6204398835601]), (3, [1509966650314574, -13164764128484, -6201104030948]), (3, [1490553918423789, -13803642442396, -6113865106780]), (3, [1041492413955891, -25594431641557, -4177338776176]), (3, [-1041492413955891, -25594431641557, 4177338776176]), (3, [-1490553918423789, -13803642442396, 6113865106780]), (3, [-1509966650314574, -13164764128484, 6201104030948]), (3, [-1510698246339517, -13140450644655, 6204398835601]), (3, [-1510725672948769, -13139538826436, 6204522363796]), (3, [-1510726700935182, -13139504649784, 6204526993814]), (3, [-1510726739465220, -13139503368805, 6204527167352]), (3, [-1510726740909355, -13139503320793, 6204527173857]), (3, [-1510726740963475, -13139503318993, 6204527174100]), (3, [-1510726740965528, -13139503318926, 6204527174110]), (3, [-1510726740965605, -13139503318923, 6204527174110]), (3, [-1510726740965597, -13139503318923, 6204527174110])]
  spP' := [(3, [-1510726740965597, -13139503318923, 6204527174110])]
  spA' := [(3, [-1510726740965641, -13139503318919, 6204527174110]), (3, [-1510726740966904, -13139503318778, 6204527174100]), (3, [-1510726741010237, -13139503313943, 6204527173777]), (3, [-1510726742498995, -13139503147905, 6204527162663]), (3, [-1510726793628720, -13139497445458, 6204526780956]), (3, [-1510728549632185, -13139301600197, 6204513671609]), (3, [-1510788856697652, -13132575596913, 6204063450210]), (3, [-1512858532082705, -12901724748479, 6188609601289]), (3, [-1582193492358500, -5143848585226, 5667813179814]), (4, [])]
  lA := [1510726740965597, -13139503318923, -6204527174110]
  lC := [-1510726740965597, -13139503318923, 6204527174110]

theorem class_Optimal_4_1_ok : classData 4 .ggqOptimal 8 2 lag8 ((Tables.S_8_2_base_odd)[0]!) ((Tables.S_8_2_base_odd)[1]!) ((Tables.S_8_2_base_odd)[2]!) 10 1 43 class_Optimal_4_1 = true := by decide +kernel

/-- Degree 4, `ggqOptimal`: the rule of every number of spans. -/
theorem good_Optimal_4 (e : ℕ) (he : 1 ≤ e) :
    ∃ rule, getGGQ 4 e .ggqOptimal = .ok rule ∧ GoodRule 8 2 e rule := by
  have key : e ∈ [1, 2, 3, 4, 5, 6, 7, 8, 9, 10, 11, 12, 13, 14, 15, 16, 17, 18, 19, 20, 21, 22, 23, 24, 25, 26, 27, 28, 29, 30, 31, 32, 33, 34, 35, 36, 37, 38, 39, 40, 41] ∨ (42 ≤ e ∧ e % 2 = 0) ∨ (43 ≤ e ∧ e % 2 = 1) := by
    rcases Nat.lt_or_ge e 44 with h | h
    · have : ∀ e < 44, 1 ≤ e → (e ∈ [1, 2, 3, 4, 5, 6, 7, 8, 9, 10, 11, 12, 13, 14, 15, 16, 17, 18, 19, 20, 21, 22, 23, 24, 25, 26, 27, 28, 29, 30, 31, 32, 33, 34, 35, 36, 37, 38, 39, 40, 41] ∨ (42 ≤ e ∧ e % 2 = 0) ∨ (43 ≤ e ∧ e % 2 = 1)) := by decide +kernel
      exact this e h he
    · omega
  rcases key with h | ⟨h1, h2⟩ | ⟨h1, h2⟩
  · exact table_good lag8_ok (by norm_num) rfl cert_Optimal_4_ok (by simpa [cert_Optimal_4] using h)
  · have := class_good lag8_ok class_Optimal_4_0_ok ((e - 42) / 2)
    rwa [show 42 + 2 * 1 * ((e - 42) / 2) = e by omega] at this
  · have := class_good lag8_ok class_Optimal_4_1_ok ((e - 43) / 2)
    rwa [show 43 + 2 * 1 * ((e - 43) / 2) = e by omega] at this

end QuESo.Rules
