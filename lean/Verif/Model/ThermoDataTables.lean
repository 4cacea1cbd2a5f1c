import Mathlib.Data.Rat.Defs

/-! # The thermodynamic data modules (pycycle/thermo/cea/thermo_data)

Generated by tools/thermo_data.py from the source. Decimal literals are exact rationals here. -/

namespace PyCycle.Data

/-- One entry of `products`. -/
structure Prod where
  name : String
  elements : List (String × ℚ)
  wt : ℚ
  ranges : List ℚ
  coeffs : List (List ℚ)

/-- `Ar` (janaf.py:9-21). -/
def janaf_Ar : Prod where
  name := "Ar"
  elements := [("Ar", 1)]
  wt := 39.948
  ranges := [200, 1000, 6000, 20000]
  coeffs := [
    [0, 0, 2.5, 0, 0,
     0, 0, -745.375, 4.37967491],
    [20.10538475, -0.0599266107, 2.500069401, -3.99214116e-8, 1.20527214e-11,
     -1.819015576e-15, 1.078576636e-19, -744.993961, 4.37918011],
    [-995126508, 645888.726, -167.5894697, 0.02319933363, -0.000001721080911,
     6.53193846e-11, -9.740147729e-16, -5078300.34, 1465.298484]]

/-- `CH4` (janaf.py:22-32). -/
def janaf_CH4 : Prod where
  name := "CH4"
  elements := [("C", 1), ("H", 4)]
  wt := 16.04246
  ranges := [200, 1000, 6000]
  coeffs := [
    [-176685.0998, 2786.18102, -12.0257785, 0.0391761929, -0.0000361905443,
     2.026853043e-8, -4.97670549e-12, -23313.1436, 89.0432275],
    [3730042.76, -13835.01485, 20.49107091, -0.001961974759, 0.000000472731304,
     -3.72881469e-11, 1.623737207e-15, 75320.6691, -121.9124889]]

/-- `C2H4` (janaf.py:33-43). -/
def janaf_C2H4 : Prod where
  name := "C2H4"
  elements := [("C", 2), ("H", 4)]
  wt := 28.05316
  ranges := [200, 1000, 6000]
  coeffs := [
    [-116360.5836, 2554.85151, -16.09746428, 0.0662577932, -0.0000788508186,
     5.12522482e-8, -1.370340031e-11, -6176.19107, 109.3338343],
    [3408763.67, -13748.47903, 23.65898074, -0.002423804419, 0.000000443139566,
     -4.35268339e-11, 1.775410633e-15, 88204.2938, -137.1278108]]

/-- `CO` (janaf.py:68-80). -/
def janaf_CO : Prod where
  name := "CO"
  elements := [("C", 1), ("O", 1)]
  wt := 28.0101
  ranges := [200, 1000, 6000, 20000]
  coeffs := [
    [14890.45326, -292.2285939, 5.72452717, -0.00817623503, 0.00001456903469,
     -1.087746302e-8, 3.027941827e-12, -13031.31878, -7.85924135],
    [461919.725, -1944.704863, 5.91671418, -0.000566428283, 0.000000139881454,
     -1.787680361e-11, 9.62093557e-16, -2466.261084, -13.87413108],
    [886866296, -750037.784, 249.5474979, -0.039563511, 0.00000329777208,
     -1.318409933e-10, 1.998937948e-15, 5701421.13, -2060.704786]]

/-- `CO2` (janaf.py:81-93). -/
def janaf_CO2 : Prod where
  name := "CO2"
  elements := [("C", 1), ("O", 2)]
  wt := 44.0095
  ranges := [200, 1000, 6000, 20000]
  coeffs := [
    [49436.5054, -626.411601, 5.30172524, 0.002503813816, -0.0000002127308728,
     -7.68998878e-10, 2.849677801e-13, -45281.9846, -7.04827944],
    [117696.2419, -1788.791477, 8.29152319, -0.0000922315678, 4.86367688e-9,
     -1.891053312e-12, 6.33003659e-16, -39083.5059, -26.52669281],
    [-1544423287, 1016847.056, -256.140523, 0.0336940108, -0.000002181184337,
     6.99142084e-11, -8.8423515e-16, -8043214.51, 2254.177493]]

/-- `H` (janaf.py:94-106). -/
def janaf_H : Prod where
  name := "H"
  elements := [("H", 1)]
  wt := 1.00794
  ranges := [200, 1000, 6000, 20000]
  coeffs := [
    [0, 0, 2.5, 0, 0,
     0, 0, 25473.70801, -0.446682853],
    [60.7877425, -0.1819354417, 2.500211817, -0.0000001226512864, 3.73287633e-11,
     -5.68774456e-15, 3.410210197e-19, 25474.86398, -0.448191777],
    [217375769.4, -131203.5403, 33.991742, -0.00381399968, 0.0000002432854837,
     -7.69427554e-12, 9.64410563e-17, 1067638.086, -274.2301051]]

/-- `HO2` (janaf.py:107-117). -/
def janaf_HO2 : Prod where
  name := "HO2"
  elements := [("H", 1), ("O", 2)]
  wt := 33.00674
  ranges := [200, 1000, 6000]
  coeffs := [
    [-75988.8254, 1329.383918, -4.67738824, 0.02508308202, -0.00003006551588,
     1.895600056e-8, -4.82856739e-12, -5809.36643, 51.9360214],
    [-1810669.724, 4963.19203, -1.039498992, 0.00456014853, -0.000001061859447,
     1.144567878e-10, -4.76306416e-15, -31944.1874, 40.6685092]]

/-- `H2` (janaf.py:118-130). -/
def janaf_H2 : Prod where
  name := "H2"
  elements := [("H", 2)]
  wt := 2.01588
  ranges := [200, 1000, 6000, 20000]
  coeffs := [
    [40783.2281, -800.918545, 8.21470167, -0.0126971436, 0.0000175360493,
     -1.20286016e-8, 3.36809316e-12, 2682.48438, -30.4378866],
    [560812.338, -837.149134, 2.97536304, 0.00125224993, -0.000000374071842,
     5.93662825e-11, -3.60699573e-15, 5339.81585, -2.20276405],
    [496671613, -314744.812, 79.838875, -0.00841450419, 0.000000475306044,
     -1.37180973e-11, 1.6053746e-16, 2488354.66, -669.552419]]

/-- `H2O` (janaf.py:131-141). -/
def janaf_H2O : Prod where
  name := "H2O"
  elements := [("H", 2), ("O", 1)]
  wt := 18.01528
  ranges := [200, 1000, 6000]
  coeffs := [
    [-39479.6083, 575.573102, 0.931782653, 0.00722271286, -0.00000734255737,
     4.95504349e-9, -1.336933246e-12, -33039.7431, 17.24205775],
    [1034972.096, -2412.698562, 4.64611078, 0.002291998307, -0.000000683683048,
     9.42646893e-11, -4.82238053e-15, -13842.86509, -7.97814851]]

/-- `H2O2` (janaf.py:142-152). -/
def janaf_H2O2 : Prod where
  name := "H2O2"
  elements := [("H", 2), ("O", 2)]
  wt := 34.01468
  ranges := [200, 1000, 6000]
  coeffs := [
    [-92795.3358, 1564.748385, -5.97646014, 0.0327074452, -0.0000393219326,
     2.509255235e-8, -6.46504529e-12, -24940.04728, 58.7717418],
    [1489428.027, -5170.82178, 11.2820497, -0.0000804239779, -1.818383769e-8,
     6.94726559e-12, -4.8278319e-16, 14182.51038, -46.5085566]]

/-- `N` (janaf.py:153-165). -/
def janaf_N : Prod where
  name := "N"
  elements := [("N", 1)]
  wt := 14.00674
  ranges := [200, 1000, 6000, 20000]
  coeffs := [
    [0, 0, 2.5, 0, 0,
     0, 0, 56104.6378, 4.19390932],
    [88765.0138, -107.12315, 2.362188287, 0.0002916720081, -0.00000017295151,
     4.01265788e-11, -2.677227571e-15, 56973.5133, 4.86523579],
    [547518105, -310757.498, 69.1678274, -0.00684798813, 0.00000038275724,
     -1.098367709e-11, 1.277986024e-16, 2550585.618, -584.876971]]

/-- `NH3` (janaf.py:166-176). -/
def janaf_NH3 : Prod where
  name := "NH3"
  elements := [("N", 1), ("H", 3)]
  wt := 17.03056
  ranges := [200, 1000, 6000]
  coeffs := [
    [-76812.2615, 1270.951578, -3.89322913, 0.02145988418, -0.00002183766703,
     1.317385706e-8, -3.33232206e-12, -12648.86413, 43.6601494],
    [2452389.535, -8040.89424, 12.71346201, -0.000398018658, 3.55250275e-8,
     2.53092357e-12, -3.32270053e-16, 43861.9196, -64.6233025]]

/-- `NO` (janaf.py:177-189). -/
def janaf_NO : Prod where
  name := "NO"
  elements := [("N", 1), ("O", 1)]
  wt := 30.00614
  ranges := [200, 1000, 6000, 20000]
  coeffs := [
    [-11439.16503, 153.6467592, 3.43146873, -0.002668592368, 0.00000848139912,
     -7.68511105e-9, 2.386797655e-12, 9098.21441, 6.72872749],
    [223901.8716, -1289.651623, 5.43393603, -0.00036560349, 9.88096645e-8,
     -1.416076856e-11, 9.38018462e-16, 17503.17656, -8.50166709],
    [-957530354, 591243.448, -138.4566826, 0.01694339403, -0.000001007351096,
     2.912584076e-11, -3.29510935e-16, -4677501.24, 1242.081218]]

/-- `NO2` (janaf.py:190-200). -/
def janaf_NO2 : Prod where
  name := "NO2"
  elements := [("N", 1), ("O", 2)]
  wt := 46.00554
  ranges := [200, 1000, 6000]
  coeffs := [
    [-56420.3878, 963.308572, -2.434510974, 0.01927760886, -0.00001874559328,
     9.14549773e-9, -1.777647635e-12, -1547.925037, 40.6785134],
    [721300.157, -3832.6152, 11.13963285, -0.002238062246, 0.000000654772343,
     -7.6113359e-11, 3.32836105e-15, 25024.97403, -43.0512991]]

/-- `NO3` (janaf.py:201-211). -/
def janaf_NO3 : Prod where
  name := "NO3"
  elements := [("N", 1), ("O", 3)]
  wt := 62.00494
  ranges := [200, 1000, 6000]
  coeffs := [
    [34053.9841, 226.6670652, -3.79308163, 0.041707327, -0.0000570991327,
     3.83415811e-8, -1.021969284e-11, 7088.1122, 42.7309181],
    [-394387.271, -824.426353, 10.61325843, -0.0002448749816, 5.40606032e-8,
     -6.19546675e-12, 2.870000149e-16, 8982.01173, -34.446665]]

/-- `N2` (janaf.py:212-224). -/
def janaf_N2 : Prod where
  name := "N2"
  elements := [("N", 2)]
  wt := 28.01348
  ranges := [200, 1000, 6000, 20000]
  coeffs := [
    [22103.71497, -381.846182, 6.08273836, -0.00853091441, 0.00001384646189,
     -9.62579362e-9, 2.519705809e-12, 710.846086, -10.76003316],
    [587712.406, -2239.249073, 6.06694922, -0.00061396855, 0.0000001491806679,
     -1.923105485e-11, 1.061954386e-15, 12832.10415, -15.86639599],
    [831013916, -642073.354, 202.0264635, -0.03065092046, 0.000002486903333,
     -9.70595411e-11, 1.437538881e-15, 4938707.04, -1672.099736]]

/-- `O` (janaf.py:236-248). -/
def janaf_O : Prod where
  name := "O"
  elements := [("O", 1)]
  wt := 15.9994
  ranges := [200, 1000, 6000, 20000]
  coeffs := [
    [-7953.6113, 160.7177787, 1.966226438, 0.00101367031, -0.000001110415423,
     6.5175075e-10, -1.584779251e-13, 28403.62437, 8.40424182],
    [261902.0262, -729.872203, 3.31717727, -0.000428133436, 0.0000001036104594,
     -9.43830433e-12, 2.725038297e-16, 33924.2806, -0.667958535],
    [177900426.4, -108232.8257, 28.10778365, -0.002975232262, 0.0000001854997534,
     -5.79623154e-12, 7.191720164e-17, 889094.263, -218.1728151]]

/-- `OH` (janaf.py:249-261). -/
def janaf_OH : Prod where
  name := "OH"
  elements := [("O", 1), ("H", 1)]
  wt := 17.00734
  ranges := [200, 1000, 6000, 20000]
  coeffs := [
    [-1998.85899, 93.0013616, 3.050854229, 0.001529529288, -0.000003157890998,
     3.31544618e-9, -1.138762683e-12, 3239.68348, 4.67411079],
    [1017393.379, -2509.957276, 5.11654786, 0.000130529993, -8.28432226e-8,
     2.006475941e-11, -1.556993656e-15, 20444.8713, -11.01282337],
    [284723419.3, -185953.2612, 50.082409, -0.00514237498, 0.0000002875536589,
     -8.22881796e-12, 9.56722902e-17, 1468642.377, -402.355558]]

/-- `O2` (janaf.py:262-274). -/
def janaf_O2 : Prod where
  name := "O2"
  elements := [("O", 2)]
  wt := 31.9988
  ranges := [200, 1000, 6000, 20000]
  coeffs := [
    [-34255.6342, 484.700097, 1.119010961, 0.00429388924, -0.000000683630052,
     -2.0233727e-9, 1.039040018e-12, -3391.45487, 18.4969947],
    [-1037939.022, 2344.830282, 1.819732036, 0.001267847582, -0.0000002188067988,
     2.053719572e-11, -8.19346705e-16, -16890.10929, 17.38716506],
    [497529430, -286610.6874, 66.9035225, -0.00616995902, 0.0000003016396027,
     -7.4214166e-12, 7.27817577e-17, 2293554.027, -553.062161]]

/-- `janaf.products`, in source order. -/
def janaf : List Prod := [janaf_Ar, janaf_CH4, janaf_C2H4, janaf_CO, janaf_CO2, janaf_H, janaf_HO2, janaf_H2, janaf_H2O, janaf_H2O2, janaf_N, janaf_NH3, janaf_NO, janaf_NO2, janaf_NO3, janaf_N2, janaf_O, janaf_OH, janaf_O2]

/-- `janaf.element_wts` (janaf.py:277-279). -/
def janaf_wts : List (String × ℚ) := [("C", 12.017), ("O", 15.9994), ("Ar", 39.948), ("H", 1.00794), ("N", 14.00674)]

/-- `janaf.reactants` (janaf.py:281-293). -/
def janaf_reactants : List (String × List (String × ℚ)) := [
  ("JP-7", [("C", 2), ("H", 4.0044)]),
  ("Jet-A(g)", [("C", 12), ("H", 23)]),
  ("H2", [("H", 2)]),
  ("Methane", [("C", 1), ("H", 4)]),
  ("Water", [("H", 2), ("O", 1)])]

/-- `CO` (co2_co_o2.py:8-20). -/
def co2_co_o2_CO : Prod where
  name := "CO"
  elements := [("C", 1), ("O", 1)]
  wt := 28.01
  ranges := [200, 1000, 6000, 20000]
  coeffs := [
    [14890.45326, -292.2285939, 5.72452717, -0.00817623503, 0.00001456903469,
     -1.087746302e-8, 3.027941827e-12, -13031.31878, -7.85924135],
    [461919.725, -1944.704863, 5.91671418, -0.000566428283, 0.000000139881454,
     -1.787680361e-11, 9.62093557e-16, -2466.261084, -13.87413108],
    [886866296, -750037.784, 249.5474979, -0.039563511, 0.00000329777208,
     -1.318409933e-10, 1.998937948e-15, 5701421.13, -2060.704786]]

/-- `CO2` (co2_co_o2.py:21-33). -/
def co2_co_o2_CO2 : Prod where
  name := "CO2"
  elements := [("C", 1), ("O", 2)]
  wt := 44.01
  ranges := [201, 1000, 6000, 20000]
  coeffs := [
    [49436.5054, -626.411601, 5.30172524, 0.002503813816, -0.0000002127308728,
     -7.68998878e-10, 2.849677801e-13, -45281.9846, -7.04827944],
    [117696.2419, -1788.791477, 8.29152319, -0.0000922315678, 4.86367688e-9,
     -1.891053312e-12, 6.33003659e-16, -39083.5059, -26.52669281],
    [-1544423287, 1016847.056, -256.140523, 0.0336940108, -0.000002181184337,
     6.99142084e-11, -8.8423515e-16, -8043214.51, 2254.177493]]

/-- `O2` (co2_co_o2.py:34-46). -/
def co2_co_o2_O2 : Prod where
  name := "O2"
  elements := [("O", 2)]
  wt := 32
  ranges := [200, 999, 6000, 20000]
  coeffs := [
    [-34255.6342, 484.700097, 1.119010961, 0.00429388924, -0.000000683630052,
     -2.0233727e-9, 1.039040018e-12, -3391.45487, 18.4969947],
    [-1037939.022, 2344.830282, 1.819732036, 0.001267847582, -0.0000002188067988,
     2.053719572e-11, -8.19346705e-16, -16890.10929, 17.38716506],
    [497529430, -286610.6874, 66.9035225, -0.00616995902, 0.0000003016396027,
     -7.4214166e-12, 7.27817577e-17, 2293554.027, -553.062161]]

/-- `co2_co_o2.products`, in source order. -/
def co2_co_o2 : List Prod := [co2_co_o2_CO, co2_co_o2_CO2, co2_co_o2_O2]

/-- `co2_co_o2.element_wts` (co2_co_o2.py:55-57). -/
def co2_co_o2_wts : List (String × ℚ) := [("C", 12.01), ("O", 16)]

/-- `wet_air.products` (wet_air.py:12-15): the JANAF products without `CH4` and `C2H4`; weights and
reactants are shared (17-19). -/
def wet_air : List Prod := janaf.filter fun p => p.name != "CH4" && p.name != "C2H4"

end PyCycle.Data
