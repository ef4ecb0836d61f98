/-!
# Tables of one-dimensional rules (generated from the source text)

`queso/quadrature/integration_points_1d/gauss_legendre_integration_points.cpp`.  Every entry (position, weight) is the decimal number of the
source multiplied by `10 ^ 18`; the rounding of the decimal to the nearest `double` is not modelled.
-/
namespace QuESo.Rules.Tables

/-- gauss_legendre_integration_points.cpp L20-22, entry 0 of `mGaussLegendrePoints`. -/
def gaussLegendre_row0 : List (Int × Int) := [
  (500000000000000000, 1000000000000000000)]

/-- gauss_legendre_integration_points.cpp L23-26, entry 1 of `mGaussLegendrePoints`. -/
def gaussLegendre_row1 : List (Int × Int) := [
  (211324865405187130, 500000000000000000), (788675134594812900, 500000000000000000)]

/-- gauss_legendre_integration_points.cpp L27-31, entry 2 of `mGaussLegendrePoints`. -/
def gaussLegendre_row2 : List (Int × Int) := [
  (112701665379258300, 277777777777777780), (500000000000000000, 444444444444444450),
  (887298334620741700, 277777777777777780)]

/-- gauss_legendre_integration_points.cpp L32-37, entry 3 of `mGaussLegendrePoints`. -/
def gaussLegendre_row3 : List (Int × Int) := [
  (69431844202973710, 173927422568726840), (330009478207571870, 326072577431273100),
  (669990521792428100, 326072577431273100), (930568155797026200, 173927422568726840)]

/-- gauss_legendre_integration_points.cpp L38-44, entry 4 of `mGaussLegendrePoints`. -/
def gaussLegendre_row4 : List (Int × Int) := [
  (46910077030668020, 118463442528094710), (230765344947158450, 239314335249683100),
  (500000000000000000, 284444444444444500), (769234655052841500, 239314335249683100),
  (953089922969331900, 118463442528094710)]

/-- gauss_legendre_integration_points.cpp L45-52, entry 5 of `mGaussLegendrePoints`. -/
def gaussLegendre_row5 : List (Int × Int) := [
  (33765242898423975, 85662246189584870), (169395306766867760, 180380786524069470),
  (380690406958401500, 233956967286345690), (619309593041598500, 233956967286345690),
  (830604693233132200, 180380786524069470), (966234757101576000, 85662246189584870)]

/-- gauss_legendre_integration_points.cpp L53-61, entry 6 of `mGaussLegendrePoints`. -/
def gaussLegendre_row6 : List (Int × Int) := [
  (25446043828620757, 64742483084435320), (129234407200302770, 139852695744638300),
  (297077424311301400, 190915025252559160), (500000000000000000, 208979591836734480),
  (702922575688698500, 190915025252559160), (870765592799697200, 139852695744638300),
  (974553956171379200, 64742483084435320)]

/-- gauss_legendre_integration_points.cpp L62-71, entry 7 of `mGaussLegendrePoints`. -/
def gaussLegendre_row7 : List (Int × Int) := [
  (19855071751231912, 50614268145188344), (101666761293186640, 111190517226687170),
  (237233795041835500, 156853322938943520), (408282678752175100, 181341891689180880),
  (591717321247824800, 181341891689180880), (762766204958164500, 156853322938943520),
  (898333238706813400, 111190517226687170), (980144928248768100, 50614268145188344)]

/-- gauss_legendre_integration_points.cpp L72-82, entry 8 of `mGaussLegendrePoints`. -/
def gaussLegendre_row8 : List (Int × Int) := [
  (15919880246186957, 40637194180787360), (81984446336682120, 90324080347428560),
  (193314283649704820, 130305348201467830), (337873288298095540, 156173538520001400),
  (500000000000000000, 165119677500629840), (662126711701904500, 156173538520001400),
  (806685716350295200, 130305348201467830), (918015553663317900, 90324080347428560),
  (984080119753813000, 40637194180787360)]

/-- gauss_legendre_integration_points.cpp L83-94, entry 9 of `mGaussLegendrePoints`. -/
def gaussLegendre_row9 : List (Int × Int) := [
  (13046735741414128, 33335672154344034), (67468316655507730, 74725674575290180),
  (160295215850487780, 109543181257991000), (283302302935376400, 134633359654998260),
  (425562830509184400, 147762112357376500), (574437169490815600, 147762112357376500),
  (716697697064623600, 134633359654998260), (839704784149512200, 109543181257991000),
  (932531683344492300, 74725674575290180), (986953264258585900, 33335672154344034)]

/-- `mGaussLegendrePoints`, gauss_legendre_integration_points.cpp L19-94. -/
def gaussLegendre : List (List (Int × Int)) := [
  gaussLegendre_row0, gaussLegendre_row1, gaussLegendre_row2, gaussLegendre_row3, gaussLegendre_row4,
  gaussLegendre_row5, gaussLegendre_row6, gaussLegendre_row7, gaussLegendre_row8, gaussLegendre_row9]

end QuESo.Rules.Tables
