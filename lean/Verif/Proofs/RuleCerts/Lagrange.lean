import Verif.Proofs.RuleGood

/-! # Cardinal polynomials of the nodes `j / p` (generated) -/
namespace QuESo.Rules

def lag2 : Lagrange := ⟨2, 1, 6, [[1, -3, 2],
  [0, 4, -4],
  [0, -1, 2]]⟩

theorem lag2_ok : lag2.ok = true := by decide +kernel

def lag3 : Lagrange := ⟨3, 2, 12, [[2, -11, 18, -9],
  [0, 18, -45, 27],
  [0, -9, 36, -27],
  [0, 2, -9, 9]]⟩

theorem lag3_ok : lag3.ok = true := by decide +kernel

def lag4 : Lagrange := ⟨4, 3, 60, [[3, -25, 70, -80, 32],
  [0, 48, -208, 288, -128],
  [0, -36, 228, -384, 192],
  [0, 16, -112, 224, -128],
  [0, -3, 22, -48, 32]]⟩

theorem lag4_ok : lag4.ok = true := by decide +kernel

def lag5 : Lagrange := ⟨5, 24, 60, [[24, -274, 1125, -2125, 1875, -625],
  [0, 600, -3850, 8875, -8750, 3125],
  [0, -600, 5350, -14750, 16250, -6250],
  [0, 400, -3900, 12250, -15000, 6250],
  [0, -150, 1525, -5125, 6875, -3125],
  [0, 24, -250, 875, -1250, 625]]⟩

theorem lag5_ok : lag5.ok = true := by decide +kernel

def lag6 : Lagrange := ⟨6, 10, 420, [[10, -147, 812, -2205, 3150, -2268, 648],
  [0, 360, -3132, 10440, -16740, 12960, -3888],
  [0, -450, 5265, -20745, 36990, -30780, 9720],
  [0, 400, -5080, 22320, -43560, 38880, -12960],
  [0, -225, 2970, -13815, 28890, -27540, 9720],
  [0, 72, -972, 4680, -10260, 10368, -3888],
  [0, -10, 137, -675, 1530, -1620, 648]]⟩

theorem lag6_ok : lag6.ok = true := by decide +kernel

def lag7 : Lagrange := ⟨7, 720, 840, [[720, -13068, 91924, -331681, 672280, -773122, 470596, -117649],
  [0, 35280, -393372, 1750672, -3997665, 4958065, -3176523, 823543],
  [0, -52920, 775278, -4042941, 10228260, -13613670, 9176622, -2470629],
  [0, 58800, -930020, 5337080, -14634095, 20756645, -14706125, 4117715],
  [0, -44100, 723240, -4364675, 12677280, -18991910, 14117880, -4117715],
  [0, 21168, -354564, 2206176, -6662775, 10437147, -8117781, 2470629],
  [0, -5880, 99862, -634207, 1968820, -3193330, 2588278, -823543],
  [0, 720, -12348, 79576, -252105, 420175, -352947, 117649]]⟩

theorem lag7_ok : lag7.ok = true := by decide +kernel

def lag8 : Lagrange := ⟨8, 315, 2520, [[315, -6849, 59062, -269136, 718368, -1161216, 1118208, -589824, 131072],
  [0, 20160, -277056, 1563520, -4716544, 8243200, -8372224, 4587520, -1048576],
  [0, -35280, 625968, -4111072, 13698944, -25661440, 27410432, -15597568, 3670016],
  [0, 47040, -897344, 6427008, -23052288, 45803520, -51265536, 30277632, -7340032],
  [0, -44100, 870660, -6527360, 24624320, -51322880, 59924480, -36700160, 9175040],
  [0, 28224, -568512, 4382336, -17102848, 37001216, -44843008, 28442624, -7340032],
  [0, -11760, 240016, -1884960, 7534464, -16773120, 20987904, -13762560, 3670016],
  [0, 2880, -59328, 472192, -1921024, 4372480, -5619712, 3801088, -1048576],
  [0, -315, 6534, -52528, 216608, -501760, 659456, -458752, 131072]]⟩

theorem lag8_ok : lag8.ok = true := by decide +kernel

end QuESo.Rules
