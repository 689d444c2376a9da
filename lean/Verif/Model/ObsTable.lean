import Mathlib.Algebra.Order.Field.Rat

/-!
# The station table of palObs, transcribed mechanically from /repo/palObs.c:186-908

Longitudes and latitudes are stored in arcseconds (the C code multiplies by `PAL__DAS2R`).
-/

namespace Pal

/-- `struct telData`, /repo/palObs.c:173-179; `w`, `p` in arcseconds. -/
structure TelData where
  w : ℚ
  p : ℚ
  h : ℚ
  shortname : List Char
  longname : List Char
  deriving DecidableEq

/-- `WEST`, `NORTH`: /repo/palObs.c:168-169 (without the factor `PAL__DAS2R`). -/
def westNorth (d m s : ℚ) : ℚ := 60 * (60 * d + m) + s
/-- `EAST`, `SOUTH`: /repo/palObs.c:170-171. -/
def eastSouth (d m s : ℚ) : ℚ := -1 * westNorth d m s

/-- `telData[]`, /repo/palObs.c:186-908. -/
def telTable : List TelData := [
  -- line 188
  ⟨eastSouth 149 3 57.91, eastSouth 31 16 37.34, 1164, "AAT".toList, "Anglo-Australian 3.9m Telescope".toList⟩,
  -- line 196
  ⟨westNorth 17 52 53.9, westNorth 28 45 38.1, 2332, "LPO4.2".toList, "William Herschel 4.2m Telescope".toList⟩,
  -- line 204
  ⟨westNorth 17 52 39.5, westNorth 28 45 43.2, 2336, "LPO2.5".toList, "Isaac Newton 2.5m Telescope".toList⟩,
  -- line 212
  ⟨westNorth 17 52 41.2, westNorth 28 45 39.9, 2364, "LPO1".toList, "Jacobus Kapteyn 1m Telescope".toList⟩,
  -- line 220
  ⟨westNorth 121 38 13.689, westNorth 37 20 34.931, 1286, "LICK120".toList, "Lick 120 inch".toList⟩,
  -- line 228
  ⟨westNorth 110 53 4.4, westNorth 31 41 19.6, 2608, "MMT".toList, "MMT 6.5m, Mt Hopkins".toList⟩,
  -- line 236
  ⟨westNorth 123 25 1.18, westNorth 48 31 11.9, 238, "DAO72".toList, "DAO Victoria BC 1.85 metre".toList⟩,
  -- line 244
  ⟨westNorth 70 42 9.0, eastSouth 29 0 11.0, 2280, "DUPONT".toList, "Du Pont 2.5m Telescope, Las Campanas".toList⟩,
  -- line 252
  ⟨westNorth 110 52 39.00, westNorth 31 40 51.4, 2344, "MTHOP1.5".toList, "Mt Hopkins 1.5 metre".toList⟩,
  -- line 260
  ⟨eastSouth 149 0 27.59, eastSouth 35 19 14.3, 767, "STROMLO74".toList, "Mount Stromlo 74 inch".toList⟩,
  -- line 268
  ⟨eastSouth 149 3 40.3, eastSouth 31 16 24.1, 1149, "ANU2.3".toList, "Siding Spring 2.3 metre".toList⟩,
  -- line 276
  ⟨westNorth 79 50 9.61, westNorth 38 26 15.4, 881, "GBVA140".toList, "Greenbank 140 foot".toList⟩,
  -- line 284
  ⟨westNorth 70 48 53.6, eastSouth 30 9 57.8, 2235, "TOLOLO4M".toList, "Cerro Tololo 4 metre".toList⟩,
  -- line 292
  ⟨westNorth 70 48 54.5, eastSouth 30 9 56.3, 2225, "TOLOLO1.5M".toList, "Cerro Tololo 1.5 metre".toList⟩,
  -- line 300
  ⟨eastSouth 148 58 48.20, eastSouth 35 24 14.3, 670, "TIDBINBLA".toList, "Tidbinbilla 64 metre".toList⟩,
  -- line 308
  ⟨eastSouth 26 24 18.0, eastSouth 29 2 18.0, 1387, "BLOEMF".toList, "Bloemfontein 1.52 metre".toList⟩,
  -- line 316
  ⟨westNorth 64 32 48.0, eastSouth 31 35 53.0, 1250, "BOSQALEGRE".toList, "Bosque Alegre 1.54 metre".toList⟩,
  -- line 324
  ⟨westNorth 111 44 23.6, westNorth 35 11 2.5, 2316, "FLAGSTF61".toList, "USNO 61 inch astrograph, Flagstaff".toList⟩,
  -- line 332
  ⟨westNorth 111 32 9.3, westNorth 35 5 48.6, 2198, "LOWELL72".toList, "Perkins 72 inch, Lowell".toList⟩,
  -- line 340
  ⟨westNorth 71 33 29.32, westNorth 42 30 19.0, 185, "HARVARD".toList, "Harvard College Observatory 1.55m".toList⟩,
  -- line 348
  ⟨eastSouth 133 35 47.29, westNorth 34 34 26.1, 372, "OKAYAMA".toList, "Okayama 1.88 metre".toList⟩,
  -- line 356
  ⟨westNorth 111 35 57.61, westNorth 31 57 50.3, 2120, "KPNO158".toList, "Kitt Peak 158 inch".toList⟩,
  -- line 364
  ⟨westNorth 111 35 58.24, westNorth 31 57 46.9, 2071, "KPNO90".toList, "Kitt Peak 90 inch".toList⟩,
  -- line 372
  ⟨westNorth 111 35 51.56, westNorth 31 57 29.2, 2096, "KPNO84".toList, "Kitt Peak 84 inch".toList⟩,
  -- line 380
  ⟨westNorth 111 36 51.12, westNorth 31 57 12.1, 1939, "KPNO36FT".toList, "Kitt Peak 36 foot".toList⟩,
  -- line 388
  ⟨eastSouth 31 49 30.0, westNorth 29 55 54.0, 476, "KOTTAMIA".toList, "Kottamia 74 inch".toList⟩,
  -- line 396
  ⟨westNorth 70 43 36.0, eastSouth 29 15 36.0, 2428, "ESO3.6".toList, "ESO 3.6 metre".toList⟩,
  -- line 405
  ⟨westNorth 155 28 9.96, westNorth 19 49 22.77, 4213.6, "MAUNAK88".toList, "Mauna Kea 88 inch".toList⟩,
  -- line 413
  ⟨westNorth 155 28 13.18, westNorth 19 49 20.75, 4198.5, "UKIRT".toList, "UK Infra Red Telescope".toList⟩,
  -- line 421
  ⟨westNorth 71 9 9.7, westNorth 45 27 20.6, 1114, "QUEBEC1.6".toList, "Quebec 1.6 metre".toList⟩,
  -- line 429
  ⟨eastSouth 11 34 15.0, westNorth 45 50 48.0, 1365, "MTEKAR".toList, "Mt Ekar 1.82 metre".toList⟩,
  -- line 437
  ⟨westNorth 110 42 16.9, westNorth 32 26 33.9, 2790, "MTLEMMON60".toList, "Mt Lemmon 60 inch".toList⟩,
  -- line 445
  ⟨westNorth 104 1 17.60, westNorth 30 40 17.7, 2075, "MCDONLD2.7".toList, "McDonald 2.7 metre".toList⟩,
  -- line 453
  ⟨westNorth 104 1 20.10, westNorth 30 40 17.7, 2075, "MCDONLD2.1".toList, "McDonald 2.1 metre".toList⟩,
  -- line 461
  ⟨westNorth 116 51 50.0, westNorth 33 21 22.0, 1706, "PALOMAR200".toList, "Palomar 200 inch".toList⟩,
  -- line 469
  ⟨westNorth 116 51 31.0, westNorth 33 20 56.0, 1706, "PALOMAR60".toList, "Palomar 60 inch".toList⟩,
  -- line 477
  ⟨westNorth 79 25 20.0, westNorth 43 51 46.0, 244, "DUNLAP74".toList, "David Dunlap 74 inch".toList⟩,
  -- line 485
  ⟨eastSouth 5 42 46.75, westNorth 43 55 53.3, 665, "HPROV1.93".toList, "Haute Provence 1.93 metre".toList⟩,
  -- line 493
  ⟨eastSouth 5 42 43.82, westNorth 43 56 0.2, 667, "HPROV1.52".toList, "Haute Provence 1.52 metre".toList⟩,
  -- line 501
  ⟨westNorth 115 27 47.0, westNorth 31 2 38.0, 2830, "SANPM83".toList, "San Pedro Martir 83 inch".toList⟩,
  -- line 509
  ⟨eastSouth 20 48 44.3, eastSouth 32 22 43.4, 1771, "SAAO74".toList, "Sutherland 74 inch".toList⟩,
  -- line 517
  ⟨eastSouth 11 42 45.0, westNorth 50 58 51.0, 331, "TAUTNBG".toList, "Tautenburg 2 metre".toList⟩,
  -- line 525
  ⟨westNorth 110 43 55.1, westNorth 32 25 0.7, 2510, "CATALINA61".toList, "Catalina 61 inch".toList⟩,
  -- line 533
  ⟨westNorth 111 35 58.24, westNorth 31 57 46.9, 2071, "STEWARD90".toList, "Steward 90 inch".toList⟩,
  -- line 541
  ⟨eastSouth 41 26 30.0, westNorth 43 39 12.0, 2100, "USSR6".toList, "USSR 6 metre".toList⟩,
  -- line 549
  ⟨westNorth 66 45 11.1, westNorth 18 20 36.6, 496, "ARECIBO".toList, "Arecibo 1000 foot".toList⟩,
  -- line 557
  ⟨eastSouth 0 2 37.23, westNorth 52 10 12.2, 17, "CAMB5KM".toList, "Cambridge 5km".toList⟩,
  -- line 565
  ⟨eastSouth 0 2 21.64, westNorth 52 9 47.3, 17, "CAMB1MILE".toList, "Cambridge 1 mile".toList⟩,
  -- line 573
  ⟨eastSouth 6 53 1.5, westNorth 50 31 28.6, 366, "EFFELSBERG".toList, "Effelsberg 100 metre".toList⟩,
  -- line 581
  ⟨westNorth 79 50 56.36, westNorth 38 25 46.3, 894, "(R.I.P.)".toList, "Greenbank 300 foot".toList⟩,
  -- line 589
  ⟨westNorth 2 18 25.0, westNorth 53 14 10.5, 78, "JODRELL1".toList, "Jodrell Bank 250 foot".toList⟩,
  -- line 598
  ⟨eastSouth 148 15 44.3591, eastSouth 32 59 59.8657, 391.79, "PARKES".toList, "Parkes 64 metre".toList⟩,
  -- line 606
  ⟨westNorth 107 37 3.82, westNorth 34 4 43.5, 2124, "VLA".toList, "Very Large Array".toList⟩,
  -- line 614
  ⟨westNorth 79 16 23.0, westNorth 38 31 14.0, 705, "SUGARGROVE".toList, "Sugar Grove 150 foot".toList⟩,
  -- line 622
  ⟨eastSouth 41 35 25.5, westNorth 43 49 32.0, 973, "USSR600".toList, "USSR 600 foot".toList⟩,
  -- line 630
  ⟨eastSouth 138 29 12.0, westNorth 35 56 19.0, 1350, "NOBEYAMA".toList, "Nobeyama 45 metre".toList⟩,
  -- line 639
  ⟨westNorth 155 28 37.30, westNorth 19 49 22.22, 4124.75, "JCMT".toList, "JCMT 15 metre".toList⟩,
  -- line 647
  ⟨westNorth 70 43 7.0, eastSouth 29 15 30.0, 2377, "ESONTT".toList, "ESO 3.5 metre NTT".toList⟩,
  -- line 655
  ⟨westNorth 2 48 52.5, westNorth 56 20 12.0, 30, "ST.ANDREWS".toList, "St Andrews".toList⟩,
  -- line 663
  ⟨westNorth 105 49 11.56, westNorth 32 46 48.96, 2809, "APO3.5".toList, "Apache Point 3.5m".toList⟩,
  -- line 672
  ⟨westNorth 155 28 28.99, westNorth 19 49 33.41, 4160, "KECK1".toList, "Keck 10m Telescope #1".toList⟩,
  -- line 680
  ⟨eastSouth 11 42 45.0, westNorth 50 58 51.0, 331, "TAUTSCHM".toList, "Tautenberg 1.34 metre Schmidt".toList⟩,
  -- line 688
  ⟨westNorth 116 51 32.0, westNorth 33 21 26.0, 1706, "PALOMAR48".toList, "Palomar 48-inch Schmidt".toList⟩,
  -- line 696
  ⟨eastSouth 149 4 12.8, eastSouth 31 16 27.8, 1145, "UKST".toList, "UK 1.2 metre Schmidt, Siding Spring".toList⟩,
  -- line 704
  ⟨eastSouth 137 37 42.2, westNorth 35 47 38.7, 1130, "KISO".toList, "Kiso 1.05 metre Schmidt, Japan".toList⟩,
  -- line 712
  ⟨westNorth 70 43 46.5, eastSouth 29 15 25.8, 2347, "ESOSCHM".toList, "ESO 1 metre Schmidt, La Silla".toList⟩,
  -- line 721
  ⟨eastSouth 149 33 0.500, eastSouth 30 18 46.385, 236.9, "ATCA".toList, "Australia Telescope Compact Array".toList⟩,
  -- line 730
  ⟨eastSouth 149 5 58.732, eastSouth 31 16 4.451, 850, "MOPRA".toList, "ATNF Mopra Observatory".toList⟩,
  -- line 739
  ⟨westNorth 155 28 33.67, westNorth 19 49 31.81, 4163, "SUBARU".toList, "Subaru 8m telescope".toList⟩,
  -- line 748
  ⟨westNorth 155 28 7.95, westNorth 19 49 30.91, 4204.1, "CFHT".toList, "Canada-France-Hawaii 3.6m Telescope".toList⟩,
  -- line 757
  ⟨westNorth 155 28 27.24, westNorth 19 49 35.62, 4159.6, "KECK2".toList, "Keck 10m Telescope #2".toList⟩,
  -- line 766
  ⟨westNorth 155 28 8.57, westNorth 19 49 25.69, 4213.4, "GEMININ".toList, "Gemini North 8-m telescope".toList⟩,
  -- line 775
  ⟨westNorth 72 20 42.0, westNorth 42 23 30.0, 314, "FCRAO".toList, "Five College Radio Astronomy Obs".toList⟩,
  -- line 784
  ⟨westNorth 155 28 19.20, westNorth 19 49 34.39, 4168.1, "IRTF".toList, "NASA IR Telescope Facility, Mauna Kea".toList⟩,
  -- line 793
  ⟨westNorth 155 28 31.79, westNorth 19 49 20.78, 4080, "CSO".toList, "Caltech Sub-mm Observatory, Mauna Kea".toList⟩,
  -- line 802
  ⟨westNorth 70 24 11.642, eastSouth 24 37 33.117, 2635.43, "VLT1".toList, "ESO VLT, Paranal, Chile: UT1".toList⟩,
  -- line 811
  ⟨westNorth 70 24 10.855, eastSouth 24 37 31.465, 2635.43, "VLT2".toList, "ESO VLT, Paranal, Chile: UT2".toList⟩,
  -- line 820
  ⟨westNorth 70 24 9.896, eastSouth 24 37 30.300, 2635.43, "VLT3".toList, "ESO VLT, Paranal, Chile: UT3".toList⟩,
  -- line 829
  ⟨westNorth 70 24 8.000, eastSouth 24 37 31.000, 2635.43, "VLT4".toList, "ESO VLT, Paranal, Chile: UT4".toList⟩,
  -- line 838
  ⟨westNorth 70 44 11.5, eastSouth 30 14 26.7, 2738, "GEMINIS".toList, "Gemini South 8-m telescope".toList⟩,
  -- line 847
  ⟨eastSouth 7 47 3.48, westNorth 45 58 59.772, 3141, "KOSMA3M".toList, "KOSMA 3m telescope, Gornergrat".toList⟩,
  -- line 856
  ⟨westNorth 70 41 31.9, eastSouth 29 0 51.7, 2408, "MAGELLAN1".toList, "Magellan 1, 6.5m, Las Campanas".toList⟩,
  -- line 865
  ⟨westNorth 70 41 33.5, eastSouth 29 0 50.3, 2408, "MAGELLAN2".toList, "Magellan 2, 6.5m, Las Campanas".toList⟩,
  -- line 874
  ⟨westNorth 67 45 33.0, eastSouth 23 0 20.8, 5105, "APEX".toList, "APEX 12m telescope, Llano de Chajnantor".toList⟩,
  -- line 883
  ⟨westNorth 67 42 8.0, eastSouth 22 57 47.0, 4865, "NANTEN2".toList, "NANTEN2 4m telescope, Pampa la Bola".toList⟩,
  -- line 892
  ⟨westNorth 3 23 55.51, westNorth 37 4 6.29, 2850.0, "IRAM30M".toList, "IRAM 30m telescope, Pico Veleta".toList⟩,
  -- line 901
  ⟨eastSouth 5 54 28.5, westNorth 44 38 2.0, 2550.0, "NOEMA".toList, "NOEMA interferometer, Plateau de Bure".toList⟩
]

end Pal
