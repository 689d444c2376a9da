import Verif.Model.Moon

/-!
# The nutation series and the equation of the equinoxes inside palAoppa

Models `pal__Nutc` and `pal__Eqeqx` of /repo/palAoppa.c over the reals.  The tables are those of the source, with the decimals written there.
-/

namespace Pal
open Real

/-- One row of the tables `na`, `psi` and `eps`, /repo/palAoppa.c:291-878: multiples of the nine fundamental arguments, and the coefficients in microarcseconds
of cosine and sine, and of t·cosine and t·sine, in longitude (`p`) and obliquity (`e`). -/
structure NutRow where
  l : ℤ
  lp : ℤ
  f : ℤ
  d : ℤ
  om : ℤ
  ve : ℤ
  ma : ℤ
  ju : ℤ
  sa : ℤ
  p0 : ℚ
  p1 : ℚ
  p2 : ℚ
  p3 : ℚ
  e0 : ℚ
  e1 : ℚ
  e2 : ℚ
  e3 : ℚ

/-- The 194 rows, /repo/palAoppa.c:291-878. -/
def nutTable : List NutRow := [
    ⟨0, 0, 0, 0, -1, 0, 0, 0, 0, 3341.5, 17206241.800000001, 3.1000000000000001, 17409.5, 9205365.8000000007, -1506.2, 885.70000000000005, -0.20000000000000001⟩,
    ⟨0, 0, 2, -2, 2, 0, 0, 0, 0, -1716.8, -1317185.3, 1.3999999999999999, -156.80000000000001, 573095.90000000002, -570.20000000000005, -305, -0.29999999999999999⟩,
    ⟨0, 0, 2, 0, 2, 0, 0, 0, 0, 285.69999999999999, -227667, 0.29999999999999999, -23.5, 97845.5, 147.80000000000001, -48.799999999999997, -0.20000000000000001⟩,
    ⟨0, 0, 0, 0, -2, 0, 0, 0, 0, -68.599999999999994, -207448, 0, -21.399999999999999, -89753.600000000006, 28, 46.899999999999999, 0⟩,
    ⟨0, 1, 0, 0, 0, 0, 0, 0, 0, 950.29999999999995, 147607.89999999999, -2.2999999999999998, -355, 7406.6999999999998, -327.10000000000002, -18.199999999999999, 0.80000000000000004⟩,
    ⟨0, 1, 2, -2, 2, 0, 0, 0, 0, -66.700000000000003, -51689.099999999999, 0.20000000000000001, 122.59999999999999, 22442.299999999999, -22.300000000000001, -67.599999999999994, 0⟩,
    ⟨1, 0, 0, 0, 0, 0, 0, 0, 0, -108.59999999999999, 71117.600000000006, 0, 7, -683.60000000000002, 46.799999999999997, 0, 0⟩,
    ⟨0, 0, 2, 0, 1, 0, 0, 0, 0, 35.600000000000001, -38740.199999999997, 0.10000000000000001, -36.200000000000003, 20070.700000000001, 36, 1.6000000000000001, 0⟩,
    ⟨1, 0, 2, 0, 2, 0, 0, 0, 0, 85.400000000000006, -30127.599999999999, 0, -3.1000000000000001, 12893.799999999999, 39.5, -6.2000000000000002, 0⟩,
    ⟨0, -1, 2, -2, 2, 0, 0, 0, 0, 9, 21583, 0.10000000000000001, -50.299999999999997, -9593.2000000000007, 14.4, 30.199999999999999, -0.10000000000000001⟩,
    ⟨0, 0, 2, -2, 1, 0, 0, 0, 0, 22.100000000000001, 12822.799999999999, 0, 13.300000000000001, -6899.5, 4.7999999999999998, -0.59999999999999998, 0⟩,
    ⟨-1, 0, 2, 0, 2, 0, 0, 0, 0, 3.3999999999999999, 12350.799999999999, 0, 1.3, -5332.5, -0.10000000000000001, 2.7000000000000002, 0⟩,
    ⟨-1, 0, 0, 2, 0, 0, 0, 0, 0, -21.100000000000001, 15699.4, 0, 1.6000000000000001, -125.2, 10.5, 0, 0⟩,
    ⟨1, 0, 0, 0, 1, 0, 0, 0, 0, 4.2000000000000002, 6313.8000000000002, 0, 6.2000000000000002, -3323.4000000000001, -0.90000000000000002, -0.29999999999999999, 0⟩,
    ⟨1, 0, 0, 0, -1, 0, 0, 0, 0, -22.800000000000001, 5796.8999999999996, 0, 6.0999999999999996, 3142.3000000000002, 8.9000000000000004, 0.29999999999999999, 0⟩,
    ⟨-1, 0, 2, 2, 2, 0, 0, 0, 0, 15.699999999999999, -5961.1000000000004, 0, -0.59999999999999998, 2552.5, 7.2999999999999998, -1.2, 0⟩,
    ⟨1, 0, 2, 0, 1, 0, 0, 0, 0, 13.1, -5159.1000000000004, 0, -4.5999999999999996, 2634.4000000000001, 8.8000000000000007, 0.20000000000000001, 0⟩,
    ⟨-2, 0, 2, 0, 1, 0, 0, 0, 0, 1.8, 4592.6999999999998, 0, 4.5, -2424.4000000000001, 1.6000000000000001, -0.40000000000000002, 0⟩,
    ⟨0, 0, 0, 2, 0, 0, 0, 0, 0, -17.5, 6336, 0, 0.69999999999999996, -123.3, 3.8999999999999999, 0, 0⟩,
    ⟨0, 0, 2, 2, 2, 0, 0, 0, 0, 16.300000000000001, -3851.0999999999999, 0, -0.40000000000000002, 1642.4000000000001, 7.2999999999999998, -0.80000000000000004, 0⟩,
    ⟨2, 0, 0, -2, 0, 0, 0, 0, 0, -2.7999999999999998, 4771.6999999999998, 0, 0.5, 47.899999999999999, 3.2000000000000002, 0, 0⟩,
    ⟨2, 0, 2, 0, 2, 0, 0, 0, 0, 13.800000000000001, -3099.3000000000002, 0, -0.29999999999999999, 1321.2, 6.2000000000000002, -0.59999999999999998, 0⟩,
    ⟨1, 0, 2, -2, 2, 0, 0, 0, 0, 0.20000000000000001, 2860.3000000000002, 0, 0.29999999999999999, -1234.0999999999999, -0.29999999999999999, 0.59999999999999998, 0⟩,
    ⟨-1, 0, 2, 0, 1, 0, 0, 0, 0, 1.3999999999999999, 2045.3, 0, 2, -1076.5, -0.29999999999999999, 0, 0⟩,
    ⟨2, 0, 0, 0, 0, 0, 0, 0, 0, -8.5999999999999996, 2922.5999999999999, 0, 0.29999999999999999, -61.600000000000001, 1.8, 0, 0⟩,
    ⟨0, 0, 2, 0, 0, 0, 0, 0, 0, -7.7000000000000002, 2587.9000000000001, 0, 0.20000000000000001, -55.399999999999999, 1.6000000000000001, 0, 0⟩,
    ⟨0, 1, 0, 0, 1, 0, 0, 0, 0, 8.8000000000000007, -1408.0999999999999, 0, 3.7000000000000002, 856.89999999999998, -4.9000000000000004, -2.1000000000000001, 0⟩,
    ⟨-1, 0, 0, 2, 1, 0, 0, 0, 0, 1.3999999999999999, 1517.5, 0, 1.5, -800.70000000000005, -0.10000000000000001, 0, 0⟩,
    ⟨0, 2, 2, -2, 2, 0, 0, 0, 0, -1.8999999999999999, -1579.7, 0, 7.7000000000000002, 685.10000000000002, -0.59999999999999998, -3.7999999999999998, 0⟩,
    ⟨0, 0, 2, -2, 0, 0, 0, 0, 0, 1.3, -2178.5999999999999, 0, -0.20000000000000001, -16.899999999999999, -1.5, 0, 0⟩,
    ⟨-1, 0, 0, 2, -1, 0, 0, 0, 0, -4.7999999999999998, 1286.8, 0, 1.3, 695.70000000000005, 1.8, 0, 0⟩,
    ⟨0, 1, 0, 0, -1, 0, 0, 0, 0, 6.2999999999999998, 1267.2, 0, -4, 642.20000000000005, -2.6000000000000001, -1.6000000000000001, 0⟩,
    ⟨0, 2, 0, 0, 0, 0, 0, 0, 0, -1, 1669.3, 0, -8.3000000000000007, 13.300000000000001, 1.1000000000000001, -0.10000000000000001, 0⟩,
    ⟨-1, 0, 2, 2, 1, 0, 0, 0, 0, 2.3999999999999999, -1020, 0, -0.90000000000000002, 521.89999999999998, 1.6000000000000001, 0, 0⟩,
    ⟨1, 0, 2, 2, 2, 0, 0, 0, 0, 4.5, -766.89999999999998, 0, 0, 325.80000000000001, 2, -0.10000000000000001, 0⟩,
    ⟨0, 1, 2, 0, 2, 0, 0, 0, 0, -1.1000000000000001, 756.5, 0, -1.7, -325.10000000000002, -0.5, 0.90000000000000002, 0⟩,
    ⟨-2, 0, 2, 0, 0, 0, 0, 0, 0, -1.3999999999999999, -1097.3, 0, -0.5, 10.1, 0.29999999999999999, 0, 0⟩,
    ⟨0, 0, 2, 2, 1, 0, 0, 0, 0, 2.6000000000000001, -663, 0, -0.59999999999999998, 334.5, 1.6000000000000001, 0, 0⟩,
    ⟨0, -1, 2, 0, 2, 0, 0, 0, 0, 0.80000000000000004, -714.10000000000002, 0, 1.6000000000000001, 307.10000000000002, 0.40000000000000002, -0.90000000000000002, 0⟩,
    ⟨0, 0, 0, 2, 1, 0, 0, 0, 0, 0.40000000000000002, -629.89999999999998, 0, -0.59999999999999998, 327.19999999999999, 0.5, 0, 0⟩,
    ⟨1, 0, 2, -2, 1, 0, 0, 0, 0, 0.29999999999999999, 580.39999999999998, 0, 0.59999999999999998, -304.60000000000002, -0.10000000000000001, 0, 0⟩,
    ⟨2, 0, 0, -2, -1, 0, 0, 0, 0, -1.6000000000000001, 577.29999999999995, 0, 0.5, 304, 0.59999999999999998, 0, 0⟩,
    ⟨2, 0, 2, -2, 2, 0, 0, 0, 0, -0.90000000000000002, 644.39999999999998, 0, 0, -276.80000000000001, -0.5, 0.10000000000000001, 0⟩,
    ⟨2, 0, 2, 0, 1, 0, 0, 0, 0, 2.2000000000000002, -534, 0, -0.5, 268.89999999999998, 1.3, 0, 0⟩,
    ⟨0, 0, 0, 2, -1, 0, 0, 0, 0, -2.5, 493.30000000000001, 0, 0.5, 271.80000000000001, 1.1000000000000001, 0, 0⟩,
    ⟨0, -1, 2, -2, 1, 0, 0, 0, 0, -0.10000000000000001, -477.30000000000001, 0, -2.3999999999999999, 271.5, -0.40000000000000002, -0.80000000000000004, 0⟩,
    ⟨-1, -1, 0, 2, 0, 0, 0, 0, 0, -0.90000000000000002, 735, 0, -1.7, -5.2000000000000002, 0.5, 0, 0⟩,
    ⟨2, 0, 0, -2, 1, 0, 0, 0, 0, 0.69999999999999996, 406.19999999999999, 0, 0.40000000000000002, -220.5, 0.10000000000000001, 0, 0⟩,
    ⟨1, 0, 0, 2, 0, 0, 0, 0, 0, -2.7999999999999998, 656.89999999999998, 0, 0, -20.100000000000001, 0.29999999999999999, 0, 0⟩,
    ⟨0, 1, 2, -2, 1, 0, 0, 0, 0, 0.59999999999999998, 358, 0, 2, -191, 0.10000000000000001, 0.5, 0⟩,
    ⟨1, -1, 0, 0, 0, 0, 0, 0, 0, -0.69999999999999996, 472.5, 0, -1.1000000000000001, -4.0999999999999996, 0.29999999999999999, 0, 0⟩,
    ⟨-2, 0, 2, 0, 2, 0, 0, 0, 0, -0.10000000000000001, -300.5, 0, 0, 130.59999999999999, -0.10000000000000001, 0, 0⟩,
    ⟨0, -1, 0, 2, 0, 0, 0, 0, 0, -1.2, 435.10000000000002, 0, -1, 3, 0.29999999999999999, 0, 0⟩,
    ⟨3, 0, 2, 0, 2, 0, 0, 0, 0, 1.8, -289.39999999999998, 0, 0, 122.90000000000001, 0.80000000000000004, 0, 0⟩,
    ⟨0, 0, 0, 1, 0, 0, 0, 0, 0, 0.59999999999999998, -422.60000000000002, 0, 0, 3.7000000000000002, -0.29999999999999999, 0, 0⟩,
    ⟨1, -1, 2, 0, 2, 0, 0, 0, 0, 0.80000000000000004, -287.60000000000002, 0, 0.59999999999999998, 123.09999999999999, 0.40000000000000002, -0.29999999999999999, 0⟩,
    ⟨1, 0, 0, -1, 0, 0, 0, 0, 0, -38.600000000000001, -392.30000000000001, 0, 0, -52.700000000000003, 15.300000000000001, 0, 0⟩,
    ⟨-1, -1, 2, 2, 2, 0, 0, 0, 0, 0.69999999999999996, -281.80000000000001, 0, 0.59999999999999998, 120.7, 0.29999999999999999, -0.29999999999999999, 0⟩,
    ⟨-1, 0, 2, 0, 0, 0, 0, 0, 0, 0.59999999999999998, -405.69999999999999, 0, 0, 4, -0.29999999999999999, 0, 0⟩,
    ⟨2, 0, 0, 0, -1, 0, 0, 0, 0, -1.2, 229, 0, 0.20000000000000001, 126.5, 0.5, 0, 0⟩,
    ⟨0, -1, 2, 2, 2, 0, 0, 0, 0, 1.1000000000000001, -264.30000000000001, 0, 0.5, 112.7, 0.5, -0.29999999999999999, 0⟩,
    ⟨1, 1, 2, 0, 2, 0, 0, 0, 0, -0.69999999999999996, 247.90000000000001, 0, -0.5, -106.09999999999999, -0.29999999999999999, 0.29999999999999999, 0⟩,
    ⟨2, 0, 0, 0, 1, 0, 0, 0, 0, -0.20000000000000001, 218, 0, 0.20000000000000001, -112.90000000000001, -0.20000000000000001, 0, 0⟩,
    ⟨1, 1, 0, 0, 0, 0, 0, 0, 0, 0.59999999999999998, -339, 0, 0.80000000000000004, 3.6000000000000001, -0.20000000000000001, 0, 0⟩,
    ⟨1, 0, -2, 2, -1, 0, 0, 0, 0, -0.69999999999999996, 198.69999999999999, 0, 0.20000000000000001, 107.40000000000001, 0.29999999999999999, 0, 0⟩,
    ⟨1, 0, 2, 0, 0, 0, 0, 0, 0, -1.5, 334, 0, 0, -10.9, 0.20000000000000001, 0, 0⟩,
    ⟨-1, 1, 0, 1, 0, 0, 0, 0, 0, 0.10000000000000001, 334, 0, 0, -0.90000000000000002, 0, 0, 0⟩,
    ⟨1, 0, 0, 0, 2, 0, 0, 0, 0, -0.10000000000000001, -198.09999999999999, 0, 0, 85.400000000000006, 0, 0, 0⟩,
    ⟨-1, 0, 1, 0, 1, 0, 0, 0, 0, -106.59999999999999, 0, 0, 0, 0, -88.799999999999997, 0, 0⟩,
    ⟨0, 0, 2, 1, 2, 0, 0, 0, 0, -0.5, 165.80000000000001, 0, 0, -71, -0.20000000000000001, 0, 0⟩,
    ⟨-1, 1, 0, 1, 1, 0, 0, 0, 0, 0, 134.80000000000001, 0, 0, -70.299999999999997, 0, 0, 0⟩,
    ⟨-1, 0, 2, 4, 2, 0, 0, 0, 0, 0.90000000000000002, -151.59999999999999, 0, 0, 64.5, 0.40000000000000002, 0, 0⟩,
    ⟨0, -2, 2, -2, 1, 0, 0, 0, 0, 0, -129.69999999999999, 0, 0, 69.799999999999997, 0, 0, 0⟩,
    ⟨1, 0, 2, 2, 1, 0, 0, 0, 0, 0.80000000000000004, -132.80000000000001, 0, -0.10000000000000001, 66.099999999999994, 0.40000000000000002, 0, 0⟩,
    ⟨1, 0, 0, 0, -2, 0, 0, 0, 0, 0.5, -140.69999999999999, 0, 0, -61, -0.20000000000000001, 0, 0⟩,
    ⟨-2, 0, 2, 2, 2, 0, 0, 0, 0, -0.10000000000000001, 138.40000000000001, 0, 0, -59.5, -0.10000000000000001, 0, 0⟩,
    ⟨1, 1, 2, -2, 2, 0, 0, 0, 0, 0, 129, 0, -0.29999999999999999, -55.600000000000001, 0, 0.20000000000000001, 0⟩,
    ⟨-2, 0, 2, 4, 2, 0, 0, 0, 0, 0.5, -121.2, 0, 0, 51.700000000000003, 0.20000000000000001, 0, 0⟩,
    ⟨-1, 0, 4, 0, 2, 0, 0, 0, 0, -0.29999999999999999, 114.5, 0, 0, -49, -0.10000000000000001, 0, 0⟩,
    ⟨2, 0, 2, -2, 1, 0, 0, 0, 0, -0.10000000000000001, 101.8, 0, 0, -52.700000000000003, -0.10000000000000001, 0, 0⟩,
    ⟨1, 0, 0, -1, -1, 0, 0, 0, 0, -3.6000000000000001, -101.90000000000001, 0, 0, -49.600000000000001, 1.3999999999999999, 0, 0⟩,
    ⟨2, 0, 2, 2, 2, 0, 0, 0, 0, 0.80000000000000004, -109.40000000000001, 0, 0, 46.299999999999997, 0.40000000000000002, 0, 0⟩,
    ⟨1, 0, 0, 2, 1, 0, 0, 0, 0, 0.20000000000000001, -97, 0, 0, 49.600000000000001, 0.10000000000000001, 0, 0⟩,
    ⟨3, 0, 0, 0, 0, 0, 0, 0, 0, -0.69999999999999996, 157.30000000000001, 0, 0, -5.0999999999999996, 0.10000000000000001, 0, 0⟩,
    ⟨0, 0, 2, -2, -1, 0, 0, 0, 0, 0.20000000000000001, -83.299999999999997, 0, 0, -44, -0.10000000000000001, 0, 0⟩,
    ⟨3, 0, 2, -2, 2, 0, 0, 0, 0, -0.29999999999999999, 93.299999999999997, 0, 0, -39.899999999999999, -0.10000000000000001, 0, 0⟩,
    ⟨0, 0, 4, -2, 2, 0, 0, 0, 0, -0.10000000000000001, 92.099999999999994, 0, 0, -39.5, -0.10000000000000001, 0, 0⟩,
    ⟨-1, 0, 0, 4, 0, 0, 0, 0, 0, -0.5, 133.59999999999999, 0, 0, -3.8999999999999999, 0.10000000000000001, 0, 0⟩,
    ⟨0, 1, 2, 0, 1, 0, 0, 0, 0, -0.10000000000000001, 81.5, 0, 0, -42.100000000000001, -0.10000000000000001, 0, 0⟩,
    ⟨0, 0, 2, -2, 3, 0, 0, 0, 0, 0, 123.90000000000001, 0, 0, -17.199999999999999, 0.10000000000000001, 0, 0⟩,
    ⟨-2, 0, 0, 4, 0, 0, 0, 0, 0, -0.29999999999999999, 128.09999999999999, 0, 0, -2.2999999999999998, 0.10000000000000001, 0, 0⟩,
    ⟨-1, -1, 0, 2, 1, 0, 0, 0, 0, 0.10000000000000001, 74.099999999999994, 0, -0.29999999999999999, -39.200000000000003, 0, 0, 0⟩,
    ⟨-2, 0, 2, 0, -1, 0, 0, 0, 0, -0.20000000000000001, -70.299999999999997, 0, 0, -38.399999999999999, 0.10000000000000001, 0, 0⟩,
    ⟨0, 0, 2, 0, -1, 0, 0, 0, 0, -0.40000000000000002, 66.599999999999994, 0, 0, 36.799999999999997, 0.20000000000000001, 0, 0⟩,
    ⟨0, -1, 2, 0, 1, 0, 0, 0, 0, 0.10000000000000001, -66.700000000000003, 0, 0, 34.600000000000001, 0.10000000000000001, 0, 0⟩,
    ⟨0, 1, 0, 0, 2, 0, 0, 0, 0, -0.69999999999999996, 69.299999999999997, 0, -0.29999999999999999, -32.700000000000003, 0.29999999999999999, 0, 0⟩,
    ⟨0, 0, 2, -1, 2, 0, 0, 0, 0, 0, -70.400000000000006, 0, 0, 30.399999999999999, 0, 0, 0⟩,
    ⟨2, 1, 0, -2, 0, 0, 0, 0, 0, -0.10000000000000001, 101.5, 0, 0, 0.40000000000000002, 0.10000000000000001, 0, 0⟩,
    ⟨0, 0, 2, 4, 2, 0, 0, 0, 0, 0.5, -69.099999999999994, 0, 0, 29.300000000000001, 0.20000000000000001, 0, 0⟩,
    ⟨-1, -1, 0, 2, -1, 0, 0, 0, 0, -0.20000000000000001, 58.5, 0, 0.20000000000000001, 31.600000000000001, 0.10000000000000001, 0, 0⟩,
    ⟨-1, 1, 0, 2, 0, 0, 0, 0, 0, 0.10000000000000001, -94.900000000000006, 0, 0.20000000000000001, 0.80000000000000004, -0.10000000000000001, 0, 0⟩,
    ⟨1, -1, 0, 0, 1, 0, 0, 0, 0, 0, 52.899999999999999, 0, -0.20000000000000001, -27.899999999999999, 0, 0, 0⟩,
    ⟨0, -1, 2, -2, 0, 0, 0, 0, 0, 0.10000000000000001, 86.700000000000003, 0, -0.20000000000000001, 2.8999999999999999, 0, 0, 0⟩,
    ⟨0, 1, 0, 0, -2, 0, 0, 0, 0, -0.10000000000000001, -59.200000000000003, 0, 0.20000000000000001, -25.300000000000001, 0, 0, 0⟩,
    ⟨1, -1, 2, 2, 2, 0, 0, 0, 0, 0.29999999999999999, -58.799999999999997, 0, 0.10000000000000001, 25, 0.10000000000000001, 0, 0⟩,
    ⟨1, 0, 0, 2, -1, 0, 0, 0, 0, -0.29999999999999999, 49, 0, 0, 27.5, 0.10000000000000001, 0, 0⟩,
    ⟨-1, 1, 2, 2, 2, 0, 0, 0, 0, -0.20000000000000001, 56.899999999999999, 0, -0.10000000000000001, -24.399999999999999, -0.10000000000000001, 0, 0⟩,
    ⟨3, 0, 2, 0, 1, 0, 0, 0, 0, 0.29999999999999999, -50.200000000000003, 0, 0, 24.899999999999999, 0.20000000000000001, 0, 0⟩,
    ⟨0, 1, 2, 2, 2, 0, 0, 0, 0, -0.20000000000000001, 53.399999999999999, 0, -0.10000000000000001, -22.800000000000001, -0.10000000000000001, 0, 0⟩,
    ⟨1, 0, 2, -2, 0, 0, 0, 0, 0, 0.10000000000000001, -76.5, 0, 0, 0.90000000000000002, -0.10000000000000001, 0, 0⟩,
    ⟨-1, 0, -2, 4, -1, 0, 0, 0, 0, -0.20000000000000001, 45.299999999999997, 0, 0, 24.399999999999999, 0.10000000000000001, 0, 0⟩,
    ⟨-1, -1, 2, 2, 1, 0, 0, 0, 0, 0.10000000000000001, -46.799999999999997, 0, 0, 23.899999999999999, 0.10000000000000001, 0, 0⟩,
    ⟨0, -1, 2, 2, 1, 0, 0, 0, 0, 0.20000000000000001, -44.600000000000001, 0, 0, 22.5, 0.10000000000000001, 0, 0⟩,
    ⟨2, -1, 2, 0, 2, 0, 0, 0, 0, 0.20000000000000001, -48.700000000000003, 0, 0, 20.800000000000001, 0.10000000000000001, 0, 0⟩,
    ⟨0, 0, 0, 2, 2, 0, 0, 0, 0, 0.10000000000000001, -46.799999999999997, 0, 0, 20.100000000000001, 0, 0, 0⟩,
    ⟨1, -1, 2, 0, 1, 0, 0, 0, 0, 0.10000000000000001, -42, 0, 0, 21.5, 0.10000000000000001, 0, 0⟩,
    ⟨-1, 1, 2, 0, 2, 0, 0, 0, 0, 0, 46.399999999999999, 0, -0.10000000000000001, -20, 0, 0, 0⟩,
    ⟨0, 1, 0, 2, 0, 0, 0, 0, 0, 0.20000000000000001, -67.299999999999997, 0, 0.10000000000000001, 1.3999999999999999, 0, 0, 0⟩,
    ⟨0, 1, 2, -2, 0, 0, 0, 0, 0, 0, -65.799999999999997, 0, 0.20000000000000001, -0.20000000000000001, -0.10000000000000001, 0, 0⟩,
    ⟨0, 3, 2, -2, 2, 0, 0, 0, 0, -0.10000000000000001, -43.899999999999999, 0, 0.29999999999999999, 19, 0, -0.10000000000000001, 0⟩,
    ⟨0, 0, 0, 1, 1, 0, 0, 0, 0, 0, -38.899999999999999, 0, 0, 20.5, 0, 0, 0⟩,
    ⟨-1, 0, 2, 2, 0, 0, 0, 0, 0, -0.29999999999999999, 63.899999999999999, 0, 0, -2, 0, 0, 0⟩,
    ⟨2, 1, 2, 0, 2, 0, 0, 0, 0, -0.20000000000000001, 41.200000000000003, 0, 0, -17.600000000000001, -0.10000000000000001, 0, 0⟩,
    ⟨1, 1, 0, 0, 1, 0, 0, 0, 0, 0, -36.100000000000001, 0, 0.20000000000000001, 19, 0, 0, 0⟩,
    ⟨2, 0, 0, 2, 0, 0, 0, 0, 0, -0.29999999999999999, 58.5, 0, 0, -2.3999999999999999, 0, 0, 0⟩,
    ⟨1, 1, 2, 0, 1, 0, 0, 0, 0, -0.10000000000000001, 36.100000000000001, 0, 0, -18.399999999999999, -0.10000000000000001, 0, 0⟩,
    ⟨-1, 0, 0, 2, 2, 0, 0, 0, 0, 0, -39.700000000000003, 0, 0, 17.100000000000001, 0, 0, 0⟩,
    ⟨1, 0, -2, 2, 0, 0, 0, 0, 0, 0.10000000000000001, -57.700000000000003, 0, 0, 0.40000000000000002, 0, 0, 0⟩,
    ⟨0, -1, 0, 2, -1, 0, 0, 0, 0, -0.20000000000000001, 33.399999999999999, 0, 0, 18.399999999999999, 0.10000000000000001, 0, 0⟩,
    ⟨-1, 0, 1, 0, 2, 0, 0, 0, 0, 36.399999999999999, 0, 0, 0, 0, 17.399999999999999, 0, 0⟩,
    ⟨0, 1, 0, 1, 0, 0, 0, 0, 0, -0.10000000000000001, 55.700000000000003, 0, -0.10000000000000001, -0.59999999999999998, 0, 0, 0⟩,
    ⟨1, 0, -2, 2, -2, 0, 0, 0, 0, 0.10000000000000001, -35.399999999999999, 0, 0, -15.4, 0, 0, 0⟩,
    ⟨0, 0, 0, 1, -1, 0, 0, 0, 0, 0.10000000000000001, -31, 0, 0, -16.800000000000001, -0.10000000000000001, 0, 0⟩,
    ⟨1, -1, 0, 0, -1, 0, 0, 0, 0, -0.10000000000000001, 30.100000000000001, 0, 0, 16.300000000000001, 0, 0, 0⟩,
    ⟨0, 0, 0, 4, 0, 0, 0, 0, 0, -0.29999999999999999, 49.200000000000003, 0, 0, -2, 0, 0, 0⟩,
    ⟨1, -1, 0, 2, 0, 0, 0, 0, 0, -0.20000000000000001, 49.100000000000001, 0, 0, -1.5, 0, 0, 0⟩,
    ⟨1, 0, 2, 1, 2, 0, 0, 0, 0, -0.10000000000000001, 33.600000000000001, 0, 0, -14.300000000000001, -0.10000000000000001, 0, 0⟩,
    ⟨1, 0, 2, -1, 2, 0, 0, 0, 0, 0.10000000000000001, -33.5, 0, 0, 14.4, 0, 0, 0⟩,
    ⟨-1, 0, 0, 2, -2, 0, 0, 0, 0, 0.10000000000000001, -31, 0, 0, -13.4, 0, 0, 0⟩,
    ⟨0, 0, 2, 1, 1, 0, 0, 0, 0, -0.10000000000000001, 28, 0, 0, -14.300000000000001, -0.10000000000000001, 0, 0⟩,
    ⟨-1, 0, 2, 0, -1, 0, 0, 0, 0, 0.10000000000000001, -25.199999999999999, 0, 0, -13.699999999999999, 0, 0, 0⟩,
    ⟨-1, 0, 2, 4, 1, 0, 0, 0, 0, 0.10000000000000001, -26.199999999999999, 0, 0, 13.1, 0.10000000000000001, 0, 0⟩,
    ⟨0, 0, 2, 2, 0, 0, 0, 0, 0, -0.20000000000000001, 41.5, 0, 0, -1.7, 0, 0, 0⟩,
    ⟨1, 1, 2, -2, 1, 0, 0, 0, 0, 0, 24.5, 0, 0.10000000000000001, -12.800000000000001, 0, 0, 0⟩,
    ⟨0, 0, 1, 0, 1, 0, 0, 0, 0, -16.199999999999999, 0, 0, 0, 0, -14.4, 0, 0⟩,
    ⟨-1, 0, 2, -1, 1, 0, 0, 0, 0, 0, -22.300000000000001, 0, 0, 12.4, 0, 0, 0⟩,
    ⟨-2, 0, 2, 2, 1, 0, 0, 0, 0, 0, 23.100000000000001, 0, 0, -12, 0, 0, 0⟩,
    ⟨2, -1, 0, 0, 0, 0, 0, 0, 0, -0.10000000000000001, 37.5, 0, 0, -0.80000000000000004, 0, 0, 0⟩,
    ⟨4, 0, 2, 0, 2, 0, 0, 0, 0, 0.20000000000000001, -25.699999999999999, 0, 0, 10.9, 0.10000000000000001, 0, 0⟩,
    ⟨2, 1, 2, -2, 2, 0, 0, 0, 0, 0, 25.199999999999999, 0, 0, -10.800000000000001, 0, 0, 0⟩,
    ⟨0, 1, 2, 1, 2, 0, 0, 0, 0, 0.10000000000000001, -24.5, 0, 0, 10.5, 0, 0, 0⟩,
    ⟨1, 0, 4, -2, 2, 0, 0, 0, 0, -0.10000000000000001, 24.300000000000001, 0, 0, -10.4, 0, 0, 0⟩,
    ⟨1, 1, 0, 0, -1, 0, 0, 0, 0, 0.10000000000000001, -20.699999999999999, 0, 0, -11.199999999999999, 0, 0, 0⟩,
    ⟨-2, 0, 2, 4, 1, 0, 0, 0, 0, 0.10000000000000001, -20.800000000000001, 0, 0, 10.5, 0.10000000000000001, 0, 0⟩,
    ⟨2, 0, 2, 0, 0, 0, 0, 0, 0, -0.20000000000000001, 33.399999999999999, 0, 0, -1.3999999999999999, 0, 0, 0⟩,
    ⟨-1, 0, 1, 0, 0, 0, 0, 0, 0, 32.899999999999999, 0, 0, 0, 0, 0.10000000000000001, 0, 0⟩,
    ⟨1, 0, 0, 1, 0, 0, 0, 0, 0, 0.10000000000000001, -32.600000000000001, 0, 0, 0.69999999999999996, 0, 0, 0⟩,
    ⟨0, 1, 0, 2, 1, 0, 0, 0, 0, 0, 19.899999999999999, 0, 0, -10.300000000000001, 0, 0, 0⟩,
    ⟨-1, 0, 4, 0, 1, 0, 0, 0, 0, -0.10000000000000001, 19.600000000000001, 0, 0, -10, 0, 0, 0⟩,
    ⟨-1, 0, 0, 4, 1, 0, 0, 0, 0, 0, -18.699999999999999, 0, 0, 9.5999999999999996, 0, 0, 0⟩,
    ⟨2, 0, 2, 2, 1, 0, 0, 0, 0, 0.10000000000000001, -19, 0, 0, 9.4000000000000004, 0.10000000000000001, 0, 0⟩,
    ⟨2, 1, 0, 0, 0, 0, 0, 0, 0, 0.10000000000000001, -28.600000000000001, 0, 0, 0.59999999999999998, 0, 0, 0⟩,
    ⟨0, 0, 5, -5, 5, -3, 0, 0, 0, 4, 178.80000000000001, -11.800000000000001, 0.29999999999999999, -87.700000000000003, 4.4000000000000004, -0.40000000000000002, -6.2999999999999998⟩,
    ⟨0, 0, 0, 0, 0, 0, 0, 2, 0, 39.799999999999997, -107.3, -5.5999999999999996, -1, 46.299999999999997, 22.399999999999999, 0.5, -2.3999999999999999⟩,
    ⟨0, 0, 1, -1, 1, 0, 0, -1, 0, 9.9000000000000004, 164, -4.0999999999999996, 0.10000000000000001, 15.6, -3.3999999999999999, 0.10000000000000001, 0.40000000000000002⟩,
    ⟨0, 0, -1, 1, -1, 1, 0, 0, 0, -4.7999999999999998, -135.30000000000001, -3.3999999999999999, -0.10000000000000001, 5.2000000000000002, 5.7999999999999998, 0.20000000000000001, -0.10000000000000001⟩,
    ⟨0, 0, -1, 1, 0, 0, 2, 0, 0, 50.5, 75, 1.3999999999999999, -1.2, -30.100000000000001, 26.899999999999999, 0.69999999999999996, 0⟩,
    ⟨0, 0, 3, -3, 3, 0, 0, -1, 0, -1.1000000000000001, -53.5, 1.3, 0, 23.199999999999999, -0.5, 0, 0.59999999999999998⟩,
    ⟨0, 0, -8, 8, -7, 5, 0, 0, 0, -45, -2.3999999999999999, -0.40000000000000002, 6.5999999999999996, 1, 23.199999999999999, 3.3999999999999999, 0⟩,
    ⟨0, 0, -1, 1, -1, 0, 2, 0, 0, -11.5, -61, -0.90000000000000002, 0.40000000000000002, -12.199999999999999, -4.2999999999999998, 0, 0⟩,
    ⟨0, 0, -2, 2, -2, 2, 0, 0, 0, 4.4000000000000004, -68.400000000000006, -3.3999999999999999, 0, -2.1000000000000001, -3.7000000000000002, -0.20000000000000001, 0.10000000000000001⟩,
    ⟨0, 0, -6, 6, -6, 4, 0, 0, 0, 7.7000000000000002, -47.100000000000001, -4.7000000000000002, -1, -18.600000000000001, -3.7999999999999998, -0.40000000000000002, 1.8⟩,
    ⟨0, 0, -2, 2, -2, 0, 8, -3, 0, -42.899999999999999, -12.6, -1.2, 4.2000000000000002, 5.5, -18.699999999999999, -1.8, -0.5⟩,
    ⟨0, 0, 6, -6, 6, 0, -8, 3, 0, -42.799999999999997, 12.699999999999999, -1.2, -4.2000000000000002, -5.5, -18.699999999999999, 1.8, -0.5⟩,
    ⟨0, 0, 4, -4, 4, -2, 0, 0, 0, -7.5999999999999996, -44.100000000000001, 2.1000000000000001, -0.5, 18.399999999999999, -3.6000000000000001, 0.29999999999999999, 0.90000000000000002⟩,
    ⟨0, 0, -3, 3, -3, 2, 0, 0, 0, -64.099999999999994, 1.7, 0.20000000000000001, 4.5, -0.59999999999999998, 1.3, 0, 0⟩,
    ⟨0, 0, 4, -4, 3, 0, -8, 3, 0, 36.399999999999999, -10.4, 1, 3.5, -5.5999999999999996, -19.5, 1.8999999999999999, 0⟩,
    ⟨0, 0, -4, 4, -5, 0, 8, -3, 0, 35.600000000000001, 10.199999999999999, 1, -3.5, 5.5, -19.100000000000001, -1.8999999999999999, 0⟩,
    ⟨0, 0, 0, 0, 0, 2, 0, 0, 0, -1.7, 39.5, 2, 0, -17.300000000000001, -0.80000000000000004, 0, 0.90000000000000002⟩,
    ⟨0, 0, -4, 4, -4, 3, 0, 0, 0, 50.899999999999999, -8.1999999999999993, -0.80000000000000004, -5, -3.2000000000000002, -8.3000000000000007, -0.80000000000000004, 0.29999999999999999⟩,
    ⟨0, 1, -1, 1, -1, 0, 0, 1, 0, 0, 52.299999999999997, 1.2, 0, -0.10000000000000001, 0, 0, 0⟩,
    ⟨0, 0, 0, 0, 0, 0, 0, 1, 0, -42.899999999999999, -17.800000000000001, 0.40000000000000002, 0, -5.4000000000000004, 7.7999999999999998, -0.29999999999999999, 0⟩,
    ⟨0, 0, 1, -1, 1, 1, 0, 0, 0, 2.6000000000000001, 34.299999999999997, 0.80000000000000004, 0, -14.800000000000001, 1.3999999999999999, 0, 0.29999999999999999⟩,
    ⟨0, 0, 2, -2, 2, 0, -2, 0, 0, -0.80000000000000004, -48.600000000000001, 2.3999999999999999, -0.10000000000000001, -3.7999999999999998, 0.40000000000000002, 0, -0.20000000000000001⟩,
    ⟨0, -1, -7, 7, -7, 5, 0, 0, 0, -4.9000000000000004, 30.5, 3.7000000000000002, 0.69999999999999996, 12.6, 3.2000000000000002, 0.5, -1.5⟩,
    ⟨-2, 0, 2, 0, 2, 0, 0, -2, 0, 0, -43.600000000000001, 2.1000000000000001, 0, 0.10000000000000001, 0, 0, 0⟩,
    ⟨-2, 0, 2, 0, 1, 0, 0, -3, 0, 0, -25.399999999999999, 1.2, 0, -13.6, 2.3999999999999999, -0.10000000000000001, 0⟩,
    ⟨0, 0, 2, -2, 2, 0, 0, -2, 0, 2, 40.899999999999999, -2, 0, 0.90000000000000002, 1.2, 0, 0⟩,
    ⟨0, 0, 1, -1, 1, 0, 0, 1, 0, -2.1000000000000001, 26.100000000000001, 0.59999999999999998, 0, -11.9, -0.5, 0, 0.29999999999999999⟩,
    ⟨0, 0, 0, 0, 0, 0, 0, 0, 2, 22.600000000000001, -3.2000000000000002, -0.5, -0.5, 0.40000000000000002, 12, 0.29999999999999999, -0.20000000000000001⟩,
    ⟨0, 0, 0, 0, 0, 0, 0, 0, 1, -7.5999999999999996, 24.899999999999999, -0.40000000000000002, -0.20000000000000001, 8.3000000000000007, 6.0999999999999996, -0.10000000000000001, 0.10000000000000001⟩,
    ⟨2, 0, -2, 0, -2, 0, 0, 3, 0, -6.2000000000000002, 34.899999999999999, 1.7, 0.29999999999999999, 0, 0, 0, 0⟩,
    ⟨0, 0, 1, -1, 1, 0, 0, -2, 0, 2, 17.399999999999999, -0.40000000000000002, 0.10000000000000001, 0.40000000000000002, -10.800000000000001, 0.29999999999999999, 0⟩,
    ⟨0, 0, -7, 7, -7, 5, 0, 0, 0, -3.8999999999999999, 20.5, 2.3999999999999999, 0.59999999999999998, 9.5999999999999996, 2.2000000000000002, 0.29999999999999999, -1.2⟩]

/-- The nine fundamental arguments (local variables of /repo/palAoppa.c:288). -/
structure NutArgs where
  el : ℝ
  elp : ℝ
  f : ℝ
  d : ℝ
  om : ℝ
  ve : ℝ
  ma : ℝ
  ju : ℝ
  sa : ℝ

/-- The fundamental arguments at `t` Julian centuries from J2000, /repo/palAoppa.c:883-928. -/
noncomputable def nutArgs (t : ℝ) : NutArgs where
  el := 134.96340251 * dd2r + fmod (t * (1717915923.2178 + t * (31.8792 + t * (0.051635 + t * (-0.00024470))))) 1296000 * das2r
  elp := 357.52910918 * dd2r + fmod (t * (129596581.0481 + t * (-0.5532 + t * (0.000136 + t * (-0.00001149))))) 1296000 * das2r
  f := 93.27209062 * dd2r + fmod (t * (1739527262.8478 + t * (-12.7512 + t * (-0.001037 + t * 0.00000417)))) 1296000 * das2r
  d := 297.85019547 * dd2r + fmod (t * (1602961601.2090 + t * (-6.3706 + t * (0.006539 + t * (-0.00003169))))) 1296000 * das2r
  om := 125.04455501 * dd2r + fmod (t * (-6962890.5431 + t * (7.4722 + t * (0.007702 + t * (-0.00005939))))) 1296000 * das2r
  ve := 181.97980085 * dd2r + fmod (210664136.433548 * t) 1296000 * das2r
  ma := 355.43299958 * dd2r + fmod (68905077.493988 * t) 1296000 * das2r
  ju := 34.35151874 * dd2r + fmod (10925660.377991 * t) 1296000 * das2r
  sa := 50.07744430 * dd2r + fmod (4399609.855732 * t) 1296000 * das2r

/-- The argument of one term, /repo/palAoppa.c:936-944. -/
noncomputable def nutTheta (r : NutRow) (a : NutArgs) : ℝ :=
  r.l * a.el + r.lp * a.elp + r.f * a.f + r.d * a.d + r.om * a.om + r.ve * a.ve + r.ma * a.ma + r.ju * a.ju + r.sa * a.sa

/-- The body of the loop, /repo/palAoppa.c:935-949: the sums in longitude and obliquity. -/
noncomputable def nutStep (t : ℝ) (a : NutArgs) (r : NutRow) (s : ℝ × ℝ) : ℝ × ℝ :=
  let theta := nutTheta r a
  let c := cos theta
  let sn := sin theta
  (s.1 + ((r.p0 + r.p2 * t) * c + (r.p1 + r.p3 * t) * sn), s.2 + ((r.e0 + r.e2 * t) * c + (r.e1 + r.e3 * t) * sn))

/-- The loop over a table from its last row to its first, /repo/palAoppa.c:930-949, started with the geodesic nutation. -/
noncomputable def nutSeries (table : List NutRow) (t : ℝ) (a : NutArgs) : ℝ × ℝ :=
  table.foldr (nutStep t a) (-153.1 * sin a.elp - 1.9 * sin (2 * a.elp), 0)

/-- `pal__Nutc`, /repo/palAoppa.c:280-963: nutation in longitude and obliquity, and mean obliquity (radians). -/
noncomputable def aopNutc (date : ℝ) : ℝ × ℝ × ℝ :=
  let t := (date - 51544.5) / 36525
  let s := nutSeries nutTable t (nutArgs t)
  ((s.1 * 1e-6 - 0.042888 - 0.29856 * t) * das2r, (s.2 * 1e-6 - 0.005171 - 0.02408 * t) * das2r,
    (84381.412 + (-46.80927 + (-0.000152 + (0.0019989 + (-0.00000051 + (-0.000000025) * t) * t) * t) * t) * t) * das2r)

/-- `pal__Eqeqx`, /repo/palAoppa.c:253-276: the equation of the equinoxes (radians). -/
noncomputable def aopEqeqx (date : ℝ) : ℝ :=
  let t := (date - 51544.5) / 36525
  let om := das2r * (450160.280 + (-5 * 1296000 - 482890.539 + (7.455 + 0.008 * t) * t) * t)
  let n := aopNutc date
  n.1 * cos n.2.2 + das2r * (0.00264 * sin om + 0.000063 * sin (om + om))

end Pal
