import Mathlib.Analysis.SpecialFunctions.Trigonometric.Basic

/-!
# The Moon's motion: specification

J. Meeus, l'Astronomie, June 1984, p 348 (Astronomical Formulae for Calculators, chapter 30), written as in the publication: angles in degrees, `T` in Julian centuries after 1900 January 0.5.
-/

namespace Pal.Spec

/-- Sine and cosine of an angle in degrees. -/
noncomputable def sinDeg (x : ℝ) : ℝ := Real.sin (x * (Real.pi / 180))
@[inherit_doc sinDeg] noncomputable def cosDeg (x : ℝ) : ℝ := Real.cos (x * (Real.pi / 180))

/-- Longitude of the Moon's ascending node. -/
noncomputable def moonNode (T : ℝ) : ℝ := 259.183275 - 1934.1420 * T + 0.002078 * T ^ 2 + 0.0000022 * T ^ 3

/-- The additive terms: sin (51.2 + 20.2 T), the great Venus term, and the argument Ω + 275.05 - 2.30 T. -/
noncomputable def moonA (T : ℝ) : ℝ := sinDeg (51.2 + 20.2 * T)
@[inherit_doc moonA] noncomputable def moonB (T : ℝ) : ℝ := 0.003964 * sinDeg (346.560 + 132.870 * T - 0.0091731 * T ^ 2)
@[inherit_doc moonA] noncomputable def moonC (T : ℝ) : ℝ := moonNode T + 275.05 - 2.30 * T

/-- Moon's mean longitude L', Sun's mean anomaly M, Moon's mean anomaly M', elongation D, distance from the node F, eccentricity factor e. -/
noncomputable def moonMeanLong (T : ℝ) : ℝ :=
  270.434164 + 481267.8831 * T - 0.001133 * T ^ 2 + 0.0000019 * T ^ 3 + 0.000233 * moonA T + moonB T + 0.001964 * sinDeg (moonNode T)
@[inherit_doc moonMeanLong] noncomputable def sunAnomaly (T : ℝ) : ℝ := 358.475833 + 35999.0498 * T - 0.000150 * T ^ 2 - 0.0000033 * T ^ 3 - 0.001778 * moonA T
@[inherit_doc moonMeanLong] noncomputable def moonAnomaly (T : ℝ) : ℝ :=
  296.104608 + 477198.8491 * T + 0.009192 * T ^ 2 + 0.0000144 * T ^ 3 + 0.000817 * moonA T + moonB T + 0.002541 * sinDeg (moonNode T)
@[inherit_doc moonMeanLong] noncomputable def moonElongation (T : ℝ) : ℝ :=
  350.737486 + 445267.1142 * T - 0.001436 * T ^ 2 + 0.0000019 * T ^ 3 + 0.002011 * moonA T + moonB T + 0.001964 * sinDeg (moonNode T)
@[inherit_doc moonMeanLong] noncomputable def moonLatArg (T : ℝ) : ℝ :=
  11.250889 + 483202.0251 * T - 0.003211 * T ^ 2 - 0.0000003 * T ^ 3 + moonB T - 0.024691 * sinDeg (moonNode T) - 0.004328 * sinDeg (moonC T)
@[inherit_doc moonMeanLong] noncomputable def moonEcc (T : ℝ) : ℝ := 1 - 0.002495 * T - 0.00000752 * T ^ 2

/-- The periodic terms of the longitude (degrees). -/
noncomputable def moonLongSeries (e M M' D F : ℝ) : ℝ :=
    6.28875 * sinDeg (M') + 1.274018 * sinDeg (2 * D - M') + 0.658309 * sinDeg (2 * D) + 0.213616 * sinDeg (2 * M')
    - 0.185596 * e * sinDeg (M) - 0.114336 * sinDeg (2 * F) + 0.058793 * sinDeg (2 * D - 2 * M') + 0.057212 * e * sinDeg (2 * D - M - M')
    + 0.05332 * sinDeg (2 * D + M') + 0.045874 * e * sinDeg (2 * D - M) + 0.041024 * e * sinDeg (M' - M) - 0.034718 * sinDeg (D)
    - 0.030465 * e * sinDeg (M + M') + 0.015326 * sinDeg (2 * D - 2 * F) - 0.012528 * sinDeg (2 * F + M') - 0.01098 * sinDeg (2 * F - M')
    + 0.010674 * sinDeg (4 * D - M') + 0.010034 * sinDeg (3 * M') + 0.008548 * sinDeg (4 * D - 2 * M') - 0.00791 * e * sinDeg (2 * D + M - M')
    - 0.006783 * e * sinDeg (2 * D + M) + 0.005162 * sinDeg (M' - D) + 0.005 * e * sinDeg (D + M) + 0.004049 * e * sinDeg (2 * D + M' - M)
    + 0.003996 * sinDeg (2 * D + 2 * M') + 0.003862 * sinDeg (4 * D) + 0.003665 * sinDeg (2 * D - 3 * M') + 0.002695 * e * sinDeg (2 * M' - M)
    + 0.002602 * sinDeg (M' - 2 * D - 2 * F) + 0.002396 * e * sinDeg (2 * D - M - 2 * M') - 0.002349 * sinDeg (D + M') + 0.002249 * e ^ 2 * sinDeg (2 * D - 2 * M)
    - 0.002125 * e * sinDeg (M + 2 * M') - 0.002079 * e ^ 2 * sinDeg (2 * M) + 0.002059 * e ^ 2 * sinDeg (2 * D - 2 * M - M') - 0.001773 * sinDeg (2 * D + M' - 2 * F)
    - 0.001595 * sinDeg (2 * D + 2 * F) + 0.00122 * e * sinDeg (4 * D - M - M') - 0.00111 * sinDeg (2 * F + 2 * M') + 0.000892 * sinDeg (M' - 3 * D)
    - 0.000811 * e * sinDeg (2 * D + M + M') + 0.000761 * e * sinDeg (4 * D - M - 2 * M') + 0.000717 * e ^ 2 * sinDeg (M' - 2 * M) + 0.000704 * e ^ 2 * sinDeg (M' - 2 * D - 2 * M)
    + 0.000693 * e * sinDeg (2 * D + M - 2 * M') + 0.000598 * e * sinDeg (2 * D - 2 * F - M) + 0.00055 * sinDeg (4 * D + M') + 0.000538 * sinDeg (4 * M')
    + 0.000521 * e * sinDeg (4 * D - M) + 0.000486 * sinDeg (2 * M' - D)

/-- The periodic terms of the latitude (degrees). -/
noncomputable def moonLatSeries (e M M' D F : ℝ) : ℝ :=
    5.128189 * sinDeg (F) + 0.280606 * sinDeg (F + M') + 0.277693 * sinDeg (M' - F) + 0.173238 * sinDeg (2 * D - F)
    + 0.055413 * sinDeg (2 * D + F - M') + 0.046272 * sinDeg (2 * D - F - M') + 0.032573 * sinDeg (2 * D + F) + 0.017198 * sinDeg (F + 2 * M')
    + 0.009267 * sinDeg (2 * D + M' - F) + 0.008823 * sinDeg (2 * M' - F) + 0.008247 * e * sinDeg (2 * D - F - M) + 0.004323 * sinDeg (2 * D - F - 2 * M')
    + 0.0042 * sinDeg (2 * D + F + M') + 0.003372 * e * sinDeg (F - 2 * D - M) + 0.002472 * e * sinDeg (2 * D + F - M - M') + 0.002222 * e * sinDeg (2 * D + F - M)
    + 0.002072 * e * sinDeg (2 * D - F - M - M') + 0.001877 * e * sinDeg (F + M' - M) + 0.001828 * sinDeg (4 * D - F - M') - 0.001803 * e * sinDeg (F + M)
    - 0.00175 * sinDeg (3 * F) + 0.00157 * e * sinDeg (M' - F - M) - 0.001487 * sinDeg (D + F) - 0.001481 * e * sinDeg (F + M + M')
    + 0.001417 * e * sinDeg (F - M - M') + 0.00135 * e * sinDeg (F - M) + 0.00133 * sinDeg (F - D) + 0.001106 * sinDeg (F + 3 * M')
    + 0.00102 * sinDeg (4 * D - F) + 0.000833 * sinDeg (4 * D + F - M') + 0.000781 * sinDeg (M' - 3 * F) + 0.00067 * sinDeg (4 * D + F - 2 * M')
    + 0.000606 * sinDeg (2 * D - 3 * F) + 0.000597 * sinDeg (2 * D + 2 * M' - F) + 0.000492 * e * sinDeg (2 * D + M' - F - M) + 0.00045 * sinDeg (2 * M' - 2 * D - F)
    + 0.000439 * sinDeg (3 * M' - F) + 0.000423 * sinDeg (2 * D + F + 2 * M') + 0.000422 * sinDeg (2 * D - F - 3 * M') - 0.000367 * e * sinDeg (2 * D + F + M - M')
    - 0.000353 * e * sinDeg (2 * D + F + M) + 0.000331 * sinDeg (4 * D + F) + 0.000317 * e * sinDeg (2 * D + F + M' - M) + 0.000306 * e ^ 2 * sinDeg (2 * D - F - 2 * M)
    - 0.000283 * sinDeg (3 * F + M')

/-- The equatorial horizontal parallax (degrees). -/
noncomputable def moonParSeries (e M M' D F : ℝ) : ℝ :=
    0.950724 * cosDeg (0) + 0.051818 * cosDeg (M') + 0.009531 * cosDeg (2 * D - M') + 0.007843 * cosDeg (2 * D)
    + 0.002824 * cosDeg (2 * M') + 0.000857 * cosDeg (2 * D + M') + 0.000533 * e * cosDeg (2 * D - M) + 0.000401 * e * cosDeg (2 * D - M - M')
    + 0.00032 * e * cosDeg (M' - M) - 0.000271 * cosDeg (D) - 0.000264 * e * cosDeg (M + M') - 0.000198 * cosDeg (2 * F - M')
    + 0.000173 * cosDeg (3 * M') + 0.000167 * cosDeg (4 * D - M') - 0.000111 * e * cosDeg (M) + 0.000103 * cosDeg (4 * D - 2 * M')
    - 0.000084 * cosDeg (2 * M' - 2 * D) - 0.000083 * e * cosDeg (2 * D + M) + 0.000079 * cosDeg (2 * D + 2 * M') + 0.000072 * cosDeg (4 * D)
    + 0.000064 * e * cosDeg (2 * D + M' - M) - 0.000063 * e * cosDeg (2 * D + M - M') + 0.000041 * e * cosDeg (D + M) + 0.000035 * e * cosDeg (2 * M' - M)
    - 0.000033 * cosDeg (3 * M' - 2 * D) - 0.00003 * cosDeg (D + M') - 0.000029 * cosDeg (2 * F - 2 * D) - 0.000029 * e * cosDeg (M + 2 * M')
    + 0.000026 * e ^ 2 * cosDeg (2 * D - 2 * M) - 0.000023 * cosDeg (2 * F + M' - 2 * D) + 0.000019 * e * cosDeg (4 * D - M - M')

/-- Ecliptic longitude, latitude and parallax of the Moon in degrees, `T` Julian centuries after 1900. -/
noncomputable def moonLong (T : ℝ) : ℝ := moonMeanLong T + moonLongSeries (moonEcc T) (sunAnomaly T) (moonAnomaly T) (moonElongation T) (moonLatArg T)
@[inherit_doc moonLong] noncomputable def moonLat (T : ℝ) : ℝ :=
  moonLatSeries (moonEcc T) (sunAnomaly T) (moonAnomaly T) (moonElongation T) (moonLatArg T) * (1 - 0.0004664 * cosDeg (moonNode T) - 0.0000754 * cosDeg (moonC T))
@[inherit_doc moonLong] noncomputable def moonPar (T : ℝ) : ℝ := moonParSeries (moonEcc T) (sunAnomaly T) (moonAnomaly T) (moonElongation T) (moonLatArg T)

/-- Geocentric ecliptic position of the Moon in AU at the Modified Julian Date `d`; the Earth's equatorial radius is 4.2635212653763e-5 AU. -/
noncomputable def moonPlace (d : ℝ) : Fin 3 → ℝ :=
  let T := (d - 15019.5) / 36525
  let r := 4.2635212653763e-5 / sinDeg (moonPar T)
  ![r * (cosDeg (moonLat T) * cosDeg (moonLong T)), r * (cosDeg (moonLat T) * sinDeg (moonLong T)), r * sinDeg (moonLat T)]

end Pal.Spec
