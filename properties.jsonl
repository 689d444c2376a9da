{"id": "C01", "title": "palIntin decodes any in-range decimal integer field", "statement": "For every string holding, at position nstrt, optional white space, an optional sign, one or more decimal digits and then a non-digit or the end, with value representable in a C int, palIntin returns exactly that value, jflag -1 if a minus sign was present (including -0) and 0 otherwise, and moves nstrt past the number and past one following comma or, failing that, all following blanks.", "quantifier": "every prefix, amount of white space, sign, digit string (with leading zeros) of value in int range, and continuation text", "why_tests_cant": "Unbounded strings; tests try a handful of literals.", "anchors": ["palIntin.c:palIntin"]}
{"id": "C02", "title": "palIntin walks a delimited list", "statement": "Repeated calls of palIntin on a string made of integers separated by single commas or runs of blanks deliver exactly those integers in order and then report jflag=1 (nothing found) for ever.", "quantifier": "every finite list of in-range integers and every choice of delimiters", "why_tests_cant": "Needs induction over the number of fields and calls.", "anchors": ["palIntin.c:palIntin"]}
{"id": "C03", "title": "palIntin reports values outside the result range", "statement": "A digit string whose value does not fit the result is reported with jflag=2, and a non-negative digit string is never reported as negative.", "quantifier": "every digit string", "why_tests_cant": "Tests use small numbers; the failing inputs are a large set of long digit strings.", "anchors": ["palIntin.c:palIntin"]}
{"id": "C04", "title": "palIntin never leaves the string and always advances", "statement": "palIntin leaves nstrt between its old value and one past the terminator, strictly advances whenever it reports a number, gives jflag in {-1,0,1,2}, and with jflag=1 leaves the result unchanged.", "quantifier": "every string, every legal start position and every previous result", "why_tests_cant": "Memory-safety of the scan has to hold for every string.", "anchors": ["palIntin.c:palIntin"]}
{"id": "C05", "title": "palDfltin decodes any decimal floating field", "statement": "For every string holding at nstrt blanks, an optional sign, a decimal mantissa and an optional exponent introduced by e, E, d or D, palDfltin delivers its exact value, jflag -1 when the sign is minus (also for -0) and 0 otherwise, and moves nstrt past the field and past one comma or all following blanks.", "quantifier": "every mantissa, exponent within range, sign and continuation text that fits the internal buffer", "why_tests_cant": "Unbounded strings and values.", "anchors": ["palDfltin.c:palDfltin"]}
{"id": "C06", "title": "palDfltin handles fields anywhere, however long the string", "statement": "The decoding of a field depends only on the text of the field, not on how long a field or string is: a long string of digits is decoded in full.", "quantifier": "every string length", "why_tests_cant": "The internal fixed-size buffer only matters beyond 255 characters.", "anchors": ["palDfltin.c:palDfltin"]}
{"id": "C07", "title": "palDafin status and value", "statement": "palDafin returns a = sign*(|deg|+arcmin/60+arcsec/3600) degrees in radians for every credible combination of fields, status 0 exactly for (deg), (deg,arcmin), (deg,arcmin,arcsec) with the documented integrality and range limits, status +1 with a unchanged exactly when all three fields are absent, and otherwise -1,-2,-3 naming the degrees, arcminutes or arcseconds field: an unreadable field (for arcminutes and arcseconds that includes any sign) is blamed before a field whose larger neighbour is missing, and that before a field breaking the integrality or range limits; within each kind the first field is named, and a is still computed from the fields read, the others counting as zero.", "quantifier": "every triple of field outcomes", "why_tests_cant": "The decision table ranges over all combinations of statuses and real values.", "anchors": ["palDafin.c:palDafin"]}
{"id": "C08", "title": "palObs by number and by name agree", "statement": "For every table number n in range palObs(n) succeeds and delivers the n-th entry, and palObs(0,c) succeeds exactly when c equals some identifier ignoring case, delivering the first such entry; looking up the identifier returned for number n gives back the same station.", "quantifier": "every n and every search string", "why_tests_cant": "Every string and every table entry have to be considered.", "anchors": ["palObs.c:palObs"]}
{"id": "C09", "title": "palObs failure leaves outputs alone", "statement": "When no station matches, palObs returns -1, sets name to \"?\" and leaves ident, w, p, h unchanged; it never returns any other status than 0 or -1.", "quantifier": "every n and search string with no match", "why_tests_cant": "Universal over all non-matching strings.", "anchors": ["palObs.c:palObs"]}
{"id": "C10", "title": "String outputs respect their buffers", "statement": "palObs and palVers write only inside the buffers they are given (for a non-zero length), always NUL terminate, and the text delivered is the longest prefix of the full text that fits.", "quantifier": "every buffer length and every text", "why_tests_cant": "Buffer overruns show only at particular lengths.", "anchors": ["palObs.c:palObs", "palVers.c:palVers"]}
{"id": "C11", "title": "palObs table entries are valid geographic positions", "statement": "Every station in the table has latitude within [-pi/2,pi/2], longitude within [-pi,pi] and a fitting identifier (at most 10 characters) and name (at most 40 characters), and identifiers are pairwise distinct ignoring case.", "quantifier": "every row of the station table", "why_tests_cant": "Table has 85 rows; a proof covers all rows and all pairs.", "anchors": ["palObs.c:telData"]}
{"id": "C12", "title": "Calendar to MJD is the day count of the Gregorian calendar", "statement": "For every valid proleptic Gregorian date from year -4799 on, palCldj gives status 0 and an MJD which increases by exactly one from each calendar day to the next; dates with illegal year, month or day are reported -1,-2,-3, where -3 still delivers an MJD.", "quantifier": "every year, month, day", "why_tests_cant": "All leap-year rules over an infinite range.", "anchors": ["palOne2One.c:palCldj"]}
{"id": "C13", "title": "MJD to calendar inverts calendar to MJD", "statement": "palDjcl applied to the MJD delivered by palCldj for a valid date returns the same year, month, day and fraction 0, and the fraction of a day it returns is always in [0,1).", "quantifier": "every valid date and every day fraction", "why_tests_cant": "Infinite domain.", "anchors": ["palOne2One.c:palDjcl", "palOne2One.c:palCldj"]}
{"id": "C14", "title": "palCaldj century default", "statement": "palCaldj interprets years 0-49 as 2000-2049 and 50-99 as 1950-1999 and otherwise behaves exactly as palCldj.", "quantifier": "every year, month and day", "why_tests_cant": "Boundary behaviour for every date.", "anchors": ["palCaldj.c:palCaldj"]}
{"id": "C15", "title": "palDjcal delivers a calendar date rounded to the requested precision", "statement": "The fields delivered by palDjcal(ndp) satisfy 0 <= fraction < 10**ndp and denote the instant nearest to the given MJD at that resolution, carrying into the next day where necessary.", "quantifier": "every MJD and ndp", "why_tests_cant": "Rounding carries occur only just before midnight.", "anchors": ["palDjcal.c:palDjcal"]}
{"id": "C16", "title": "Epoch conversions are mutually inverse and increasing", "statement": "palEpj2d and palEpj, palEpb2d and palEpb are inverse to each other and strictly increasing; palEpco with equal systems is the identity, converting there and back returns the original epoch, and letter case is irrelevant.", "quantifier": "every date and epoch", "why_tests_cant": "Infinite domain.", "anchors": ["palEpco.c:palEpco", "palOne2One.c:palEpj", "palOne2One.c:palEpb"]}
{"id": "C17", "title": "palDt follows its three models, continuously, with minimum at 1819", "statement": "palDt evaluates for each epoch exactly one of the three documented parabolas; adjacent models agree at the break points to better than a nanosecond; the value never falls below 5.156 s, attained only at epoch 1819.", "quantifier": "every epoch", "why_tests_cant": "Continuity at break points and a global minimum range over all epochs.", "anchors": ["palDt.c:palDt"]}
{"id": "C18", "title": "palDat and palDtt", "statement": "palDat delivers the leap-second table's value for the calendar date and day fraction of the given MJD, and palDtt equals palDat plus exactly 32.184 s at every date.", "quantifier": "every date", "why_tests_cant": "Universal over dates.", "anchors": ["palDtt.c:palDtt", "palDat.c:palDat"]}
{"id": "C19", "title": "palDmat inverts and solves", "statement": "Whenever palDmat reports success on an n x n matrix A and vector y, the returned matrix is the two-sided inverse of A, the returned vector solves A x = y and the returned determinant is det A.", "quantifier": "every n, matrix and right-hand side", "why_tests_cant": "Unbounded dimension; pivoting order depends on data.", "anchors": ["palDmat.c:palDmat"]}
{"id": "C20", "title": "palDmat rejects singular matrices", "statement": "For a singular matrix palDmat reports jf=-1 and determinant 0; it never reports success.", "quantifier": "every n and singular matrix", "why_tests_cant": "Universal over singular matrices.", "anchors": ["palDmat.c:palDmat"]}
{"id": "C21", "title": "palFitxy six-coefficient fit is least squares", "statement": "Whenever palFitxy with itype 6 returns j=0, its coefficients are the unique ones minimising the sum of squared residuals over all six-coefficient models; it recovers the exact model if the data are generated by one.", "quantifier": "every number of stars and every data set", "why_tests_cant": "Optimality quantifies over all alternative models.", "anchors": ["palFitxy.c:palFitxy"]}
{"id": "C22", "title": "palFitxy four-coefficient fit is least squares", "statement": "Whenever palFitxy with itype 4 returns j=0 (and, for two stars, not the zero model), it returns coefficients of a shift, rotation, scale (possibly mirrored) model minimising the residuals among all models of both handednesses.", "quantifier": "every number of stars and non-degenerate data set", "why_tests_cant": "Optimality over all alternative models.", "anchors": ["palFitxy.c:palFitxy"]}
{"id": "C23", "title": "palFitxy reports bad input and leaves coefficients unchanged", "statement": "Illegal itype gives -1, too few stars -2, and in both cases coefficients are untouched; a singular configuration gives -3.", "quantifier": "every itype, np, data", "why_tests_cant": "Degenerate data sets form an infinite family.", "anchors": ["palFitxy.c:palFitxy"]}
{"id": "C24", "title": "palInvf inverts a plate model", "statement": "If palInvf reports 0, then transforming with the forward model and then the backward model (palXy2xy) is the identity, in both orders, and inverting twice gives the original coefficients; it reports -1 and leaves the output unchanged exactly if the model is degenerate.", "quantifier": "every model and point", "why_tests_cant": "Infinite domain.", "anchors": ["palInvf.c:palInvf", "palXy2xy.c:palXy2xy"]}
{"id": "C25", "title": "palPxy predictions and residuals", "statement": "palPxy predicted coordinates are the model applied to each measured point, and the RMS values are the root mean squares of the residuals with rrms^2 = xrms^2 + yrms^2.", "quantifier": "every number of points and data", "why_tests_cant": "Unbounded array length.", "anchors": ["palPxy.c:palPxy"]}
{"id": "C26", "title": "palDcmpf decomposition reproduces the model", "statement": "For every non-degenerate model, applying the four documented steps (zero points, scales, nonperpendicularity, orientation) with the values delivered by palDcmpf reproduces the six-coefficient model at every point.", "quantifier": "every six-coefficient model", "why_tests_cant": "Quadrants and sign cases.", "anchors": ["palDcmpf.c:palDcmpf"]}
{"id": "C27", "title": "palDrange and palDranrm normalise angles", "statement": "palDrange returns the angle in [-pi,pi] and palDranrm the angle in [0,2pi) that differs from the argument by a multiple of 2pi; angles already in range are returned unchanged.", "quantifier": "every real angle", "why_tests_cant": "Infinite domain.", "anchors": ["palDrange.c:palDrange", "palOne2One.c:palDranrm"]}
{"id": "C28", "title": "palDe2h and palDh2e are mutual inverses", "statement": "For every latitude, converting hour angle and declination to azimuth and elevation with palDe2h and back with palDh2e returns the same direction, azimuth lies in [0,2pi), elevation in [-pi/2,pi/2], hour angle in (-pi,pi].", "quantifier": "every direction and latitude", "why_tests_cant": "Infinite domain including poles.", "anchors": ["palDe2h.c:palDe2h", "palDh2e.c:palDh2e"]}
{"id": "C29", "title": "palAltaz agrees with palDe2h and its rates are the derivatives", "statement": "palAltaz gives the same azimuth and elevation as palDe2h and, except exactly at the zenith and nadir, the same parallactic angle as palPa, and away from the zenith its velocities and accelerations are the first and second derivatives with respect to hour angle.", "quantifier": "every hour angle, declination and latitude away from the zenith", "why_tests_cant": "Derivatives are limits.", "anchors": ["palAltaz.c:palAltaz", "palPa.c:palPa"]}
{"id": "C30", "title": "Spherical and Cartesian conversions invert each other", "statement": "palDcc2s after palDcs2c returns the direction (longitude modulo 2pi), palDcs2c always gives a unit vector, and palDcs2c after palDcc2s returns the normalised vector.", "quantifier": "every direction and vector", "why_tests_cant": "Infinite domain.", "anchors": ["palOne2One.c:palDcs2c", "palOne2One.c:palDcc2s"]}
{"id": "C31", "title": "Angular separation is a metric-like function", "statement": "palDsep is symmetric, lies in [0,pi], is invariant under a common rotation, has cosine equal to the dot product of the two directions, and vanishes exactly for equal directions.", "quantifier": "every pair of directions", "why_tests_cant": "Infinite domain.", "anchors": ["palOne2One.c:palDsep", "palOne2One.c:palDsepv"]}
{"id": "C32", "title": "Tangent-plane projection and deprojection are inverse", "statement": "palDtp2s of the coordinates delivered with status 0 by palDs2tp returns the star (RA modulo 2pi); palDs2tp of palDtp2s returns the plate coordinates with status 0; status 1,2,3 flags exactly the stars too far from the axis, in or behind the tangent plane.", "quantifier": "every tangent point and star", "why_tests_cant": "Infinite domain.", "anchors": ["palDs2tp.c:palDs2tp", "palDtp2s.c:palDtp2s"]}
{"id": "C33", "title": "palDtps2c solutions are genuine", "statement": "Every tangent point delivered by palDtps2c (n=1 or 2) projects the given star to the given tangent-plane coordinates, and n=0 is reported exactly when no solution exists.", "quantifier": "every star and plate coordinate", "why_tests_cant": "Infinite domain.", "anchors": ["palDtps2c.c:palDtps2c"]}
{"id": "C34", "title": "palDeuler is the ordered product of axis rotations", "statement": "palDeuler applies up to three rotations in the order written, ignores everything from the first unrecognised axis character on, accepts XYZ/xyz/123 alike and always returns a proper rotation matrix.", "quantifier": "every order string and all angles", "why_tests_cant": "Unbounded strings and angles.", "anchors": ["palDeuler.c:palDeuler"]}
{"id": "C35", "title": "Ecliptic conversions are inverse", "statement": "palEqecl after palEcleq and palEcleq after palEqecl return the same direction at every date, whatever orthogonal precession matrix is supplied by the theory.", "quantifier": "every direction and date", "why_tests_cant": "Infinite domain.", "anchors": ["palEcleq.c:palEcleq", "palEqecl.c:palEqecl", "palEcmat.c:palEcmat"]}
{"id": "C36", "title": "Galactic and supergalactic conversions invert each other to rounding of the published matrix", "statement": "palGaleq after palEqgal (and conversely) returns the direction within 6e-10, palSupgal after palGalsup (and conversely) within 6e-12 (the published matrices are orthogonal only to their printed digits), all results are in the conventional ranges; the supergalactic system is the one with pole at galactic (47.37, +6.32) degrees to 3e-11, and the way from galactic to J2000 through B1950 (palGe50, palFk45z) agrees with palGaleq to 2e-9.", "quantifier": "every direction", "why_tests_cant": "Infinite domain; error bound is universal.", "anchors": ["palEqgal.c:palEqgal", "palGaleq.c:palGaleq", "palGalsup.c:palGalsup", "palSupgal.c:palSupgal"]}
{"id": "C37", "title": "Pincushion distortion removal inverts its application", "statement": "palPcd applied to the result of palUnpcd gives back the point for every coefficient and point; palUnpcd exactly undoes palPcd for every pincushion coefficient, and for barrel distortion in the range where the distortion is monotonic.", "quantifier": "every coefficient and point", "why_tests_cant": "Cubic solution branches.", "anchors": ["palPcd.c:palPcd", "palUnpcd.c:palUnpcd"]}
{"id": "C38", "title": "palPolmo without polar motion is the identity", "statement": "palPolmo gives the longitude and latitude of the site vector turned by the polar motion and the azimuth correction to the terrestrial pole, for every site including the poles; with xp=yp=0 it returns the given position and zero azimuth change.", "quantifier": "every site", "why_tests_cant": "Infinite domain.", "anchors": ["palPolmo.c:palPolmo"]}
{"id": "C39", "title": "E-terms of aberration add and remove", "statement": "palSubet removes what palAddet adds: the direction after adding and removing E-terms at one equinox equals the original to second order in the E-terms (third order the other way round), the E-terms never exceed 1.7e-6 between 1600 and 2400; both produce RA in [0,2pi).", "quantifier": "every direction and equinox", "why_tests_cant": "Infinite domain.", "anchors": ["palAddet.c:palAddet", "palSubet.c:palSubet", "palEtrms.c:palEtrms"]}
{"id": "C40", "title": "Radial velocity components are projections of a fixed velocity", "statement": "palRverot, palRvgalc, palRvlg, palRvlsrd, palRvlsrk return the component of a fixed vector along the line of sight: antipodal directions give opposite values, the magnitude never exceeds the documented speed, and (l,b) from palEqgal reproduces the documented apices; the kinematical LSR is 20 km/s towards 18h +30 degrees of 1900 precessed to 2000.", "quantifier": "every direction", "why_tests_cant": "Infinite domain.", "anchors": ["palRverot.c", "palRvgalc.c", "palRvlg.c", "palRvlsrd.c", "palRvlsrk.c"]}
{"id": "C41", "title": "palAirmas is even, monotonic and capped", "statement": "palAirmas is an even function of zenith distance, at least 1, non-decreasing in |zd| up to its cap and constant beyond 87 degrees.", "quantifier": "every zenith distance", "why_tests_cant": "Monotonicity over all reals.", "anchors": ["palAirmas.c:palAirmas"]}
{"id": "C42", "title": "palPrec maps mean place of the first epoch to the second", "statement": "The matrix returned by palPrec(ep0,ep1) is orthogonal, is the identity for ep0=ep1, is the transpose of palPrec(ep1,ep0), and composes: P(b,c)P(a,b)=P(a,c), as V(EP1)=RMATP*V(EP0) requires.", "quantifier": "every pair or triple of epochs and every underlying precession model", "why_tests_cant": "The defect shows only when neither epoch is 2000, for all such pairs.", "anchors": ["palPrec.c:palPrec"]}
{"id": "C43", "title": "palPrebn and palPrenut, palNut give rotations", "statement": "palPrebn, palNut and palPrenut always return proper rotation matrices, palPrebn is the identity for equal epochs, exactly inverted by exchanging the epochs, and between 1850 and 2000 is a turn about the ecliptic pole of 50.26 arcseconds a year to within 7 arcseconds a century.", "quantifier": "every epoch", "why_tests_cant": "Infinite domain.", "anchors": ["palPrebn.c:palPrebn", "palNut.c:palNut", "palPrenut.c:palPrenut", "palNutc.c:palNutc"]}
{"id": "C44", "title": "palPreces system selection", "statement": "palPreces accepts FK4 and FK5 in any letter case, flags any other system with the impossible values -99 for both coordinates, and otherwise returns RA in [0,2pi).", "quantifier": "every system string and position", "why_tests_cant": "Every string.", "anchors": ["palPreces.c:palPreces"]}
{"id": "C45", "title": "palMapqk and palMapqkz agree for stars without motion", "statement": "palMapqk with zero proper motion, parallax and radial velocity gives exactly the result of palMapqkz.", "quantifier": "every star and parameter block", "why_tests_cant": "Differences are second-order small and hidden by test tolerances.", "anchors": ["palMapqk.c:palMapqk", "palMapqkz.c:palMapqkz"]}
{"id": "C46", "title": "palMap and palAmp are the composition of their quick forms", "statement": "palMap is palMappa followed by palMapqk, palAmp is palMappa followed by palAmpqk; the iterations of palAmpqk invert palMapqkz: for every star away from the Sun, every Earth speed v up to c/50 and every deflection constant up to 1e-6 the direction is recovered within 35 v^3 + 2 W^2 + W/10^6 (about 4e-11 radian for the Earth), exactly when aberration and deflection are switched off; palMappa delivers parameters meeting these conditions.", "quantifier": "every star, date and equinox", "why_tests_cant": "Infinite domain.", "anchors": ["palMap.c:palMap", "palAmp.c:palAmp", "palAmpqk.c:palAmpqk"]}
{"id": "C47", "title": "palEvp velocities and frame selection", "statement": "palEvp converts velocities from per day to per second, and applies to all four vectors one and the same rotation, which preserves lengths and relative angles; for deqx<=0 the vectors are not rotated.", "quantifier": "every date and equinox", "why_tests_cant": "Infinite domain.", "anchors": ["palEvp.c:palEvp", "palEpv.c:palEpv"]}
{"id": "C48", "title": "palPvobs observer moves on a circle", "statement": "The observer position and velocity delivered by palPvobs are perpendicular, speed is sidereal rate times distance from the axis, and position at sidereal time st is the position at 0 turned by st about the pole.", "quantifier": "every site and sidereal time", "why_tests_cant": "Infinite domain.", "anchors": ["palPvobs.c:palPvobs", "palGeoc.c:palGeoc"]}
{"id": "C49", "title": "palFk54z agrees with palFk524", "statement": "palFk54z equals palFk524 with zero proper motion, parallax and velocity followed by linear motion to the Besselian epoch; palFk45z undoes palFk54z at epoch 1950 within 1 milliarcsecond over the whole sky, and at every epoch from 1875 to 2025 below declination 87 degrees; the proper motions of palFk524 are the rates of its spherical coordinates.", "quantifier": "every star", "why_tests_cant": "Infinite domain.", "anchors": ["palFk54z.c:palFk54z", "palFk524.c:palFk524", "palFk45z.c:palFk45z"]}
{"id": "C50", "title": "palRefco fits the rigorous refraction at two zenith distances", "statement": "The constants A,B delivered by palRefco reproduce palRefro exactly at zenith distances arctan 1 and arctan 4: A tan z + B tan^3 z equals the rigorous value there.", "quantifier": "all atmospheric parameters", "why_tests_cant": "Infinite parameter space.", "anchors": ["palRefco.c:palRefco"]}
{"id": "C51", "title": "palRefro clamps and symmetries", "statement": "palRefro depends on its arguments only through their clamped values: results are constant outside the documented ranges, odd in zenith distance, periodic by 2pi, and insensitive to the sign of the lapse rate.", "quantifier": "all arguments", "why_tests_cant": "Infinite parameter space.", "anchors": ["palRefro.c:palRefro"]}
{"id": "C52", "title": "palRefro terminates with bounded work", "statement": "The quadrature in palRefro performs at most 11 strip doublings for each of its two segments whatever the integrand and tolerance.", "quantifier": "all arguments", "why_tests_cant": "Termination for all inputs.", "anchors": ["palRefro.c:palRefro"]}
{"id": "C53", "title": "Atmosphere models are physical", "statement": "pal1Atmt and pal1Atms give a temperature clamped to the documented range, refractive index at least 1 (for non-negative pressure coefficients), tending to the observer's value at the observer. The troposphere palRefro sets up is moist air in hydrostatic equilibrium (dp/dr = - gravity x density, vapour falling as the power 18.36 of the temperature), and the quantity palRefro integrates is the rate at which a ray obeying the law of refraction turns.", "quantifier": "all parameters", "why_tests_cant": "Infinite parameter space; the equilibrium is a differential equation.", "anchors": ["pal1Atmt.c:pal1Atmt", "pal1Atms.c:pal1Atms", "palRefro.c:palRefro"]}
{"id": "C54", "title": "palRefz and palRefv refract towards the zenith and are consistent", "statement": "For realistic constants palRefz inverts the A tan z + B tan^3 z model (4e-10 rad up to 83 degrees, 4e-15 rad up to arctan 4), is continuous (83 degree joint included), holds the refraction constant beyond 93 degrees, and is the identity for A=B=0; palRefv makes the first Newton correction of palRefz in vector form, leaves a vector's azimuth unchanged, and is the identity for A=B=0.", "quantifier": "all zenith distances and vectors", "why_tests_cant": "Continuity and limits.", "anchors": ["palRefz.c:palRefz", "palRefv.c:palRefv"]}
{"id": "C55", "title": "palAtmdsp scales dispersion", "statement": "palAtmdsp leaves the coefficients unchanged if either wavelength is radio or if both are equal, scales A by the ratio of refractivities, and is transitive in A when going through an intermediate wavelength.", "quantifier": "all parameters", "why_tests_cant": "Infinite parameter space.", "anchors": ["palAtmdsp.c:palAtmdsp"]}
{"id": "C56", "title": "Observed places: palAopqk and palOapqk", "statement": "palAopqk always delivers a result: the azimuth and zenith distance of the apparent direction corrected for diurnal aberration and refraction, and the hour angle, declination and right ascension of that same direction. palOapqk looks only at the first character of the type (R/r right ascension, H/h hour angle, anything else azimuth and zenith distance), gives the same answer for the three descriptions of one direction, removes refraction and diurnal aberration, and so undoes palAopqk up to the mismatch of the two refraction calculations and the square of the diurnal aberration; without atmosphere it undoes it everywhere.", "quantifier": "all coordinates, parameters and type strings", "why_tests_cant": "Infinite domain.", "anchors": ["palOapqk.c:palOapqk", "palAopqk.c:palAopqk"]}
{"id": "C57", "title": "palAoppa, palAoppat, palAop and palOap", "statement": "palAop = palAoppa then palAopqk, palOap = palAoppa then palOapqk. palAoppa delivers the latitude of the site displaced by polar motion (agreeing with palPolmo to second order, unchanged without polar motion), the diurnal aberration from the rotation speed there, copies of the meteorological data, the palRefco constants and the local apparent sidereal time. palAoppat changes the sidereal time only; palAoppa at one date followed by palAoppat at another differs from palAoppa at the second date only by the change of the equation of the equinoxes. With zero pressure refraction is disabled.", "quantifier": "all parameters", "why_tests_cant": "Infinite domain.", "anchors": ["palAop.c", "palOap.c", "palAoppa.c", "palAoppat.c"]}
{"id": "C58", "title": "palEl2ue validation", "statement": "palEl2ue returns -1..-4 for illegal jform, e, aorq, dm in that order of priority and leaves u unchanged for any failure.", "quantifier": "all inputs", "why_tests_cant": "Universal over invalid combinations.", "anchors": ["palEl2ue.c:palEl2ue"]}
{"id": "C59", "title": "palUe2pv terminates, and fails without side effects", "statement": "palUe2pv always stops within a fixed number of iterations; on status -1 or -2 neither u nor pv is changed; on success only the last two elements of u change.", "quantifier": "all dates and elements", "why_tests_cant": "Termination and frame condition for every input.", "anchors": ["palUe2pv.c:palUe2pv"]}
{"id": "C60", "title": "palUe2pv conserves energy and angular momentum", "statement": "If the universal Kepler equation is solved exactly, the state delivered by palUe2pv has the same orbital energy and angular momentum vector as the element set, and at the reference epoch returns the reference state.", "quantifier": "all element sets and dates", "why_tests_cant": "Conservation laws over all inputs.", "anchors": ["palUe2pv.c:palUe2pv"]}
{"id": "C61", "title": "palPv2ue then palUe2pv at the same date returns the state", "statement": "For any non-degenerate state vector, palPv2ue succeeds and palUe2pv evaluated at that date returns the same position and velocity; a negative mass is reported as -1, a distance below 0.001 AU as -2, a speed below 0.001 AU per canonical day as -3, without changing the elements.", "quantifier": "all state vectors", "why_tests_cant": "Infinite domain.", "anchors": ["palPv2ue.c:palPv2ue", "palUe2pv.c:palUe2pv"]}
{"id": "C62", "title": "palPv2el delivers elements of the right form", "statement": "palPv2el validates mass, jform, position and velocity in documented order, and the returned jform is 3 for every orbit that is not elliptical.", "quantifier": "all states", "why_tests_cant": "Boundary case of exactly parabolic orbits.", "anchors": ["palPv2el.c:palPv2el"]}
{"id": "C63", "title": "palPertue propagates to the requested date", "statement": "palPertue terminates; on success the elements returned refer to the requested date; on error status -1 the elements are unchanged; if the requested date is the epoch, the elements are unchanged.", "quantifier": "all element sets, dates, planetary data", "why_tests_cant": "Loop invariants over unbounded number of steps.", "anchors": ["palPertue.c:palPertue"]}
{"id": "C64", "title": "palPertue accounts for the Moon of near-Earth objects", "statement": "When the body is close to the Earth-Moon barycentre palPertue sums the separate attractions of Earth and Moon in place of the barycentre; warning statuses 1-10 include the Moon.", "quantifier": "all configurations", "why_tests_cant": "Only near-Earth configurations reveal it and the effect is small.", "anchors": ["palPertue.c:palPertue"]}
{"id": "C65", "title": "palPertel status mapping", "statement": "palPertel accepts only jform 2 or 3, reports only documented statuses (-5 to -1, 0, 1 to 10, 101, 102), leaves the arguments for the new elements alone when it rejects the input, and on success delivers osculating elements of the same form for the requested date; with equal dates it only converts to universal elements and back.", "quantifier": "all inputs", "why_tests_cant": "Every status combination.", "anchors": ["palPertel.c:palPertel"]}
{"id": "C66", "title": "palPlantu uses only defined data", "statement": "palPlantu reads no uninitialised data: when the orbit propagation fails the RA, Dec and distance are not computed from garbage.", "quantifier": "all element sets", "why_tests_cant": "Undefined behaviour on failure paths.", "anchors": ["palPlantu.c:palPlantu", "palPlante.c:palPlante"]}
{"id": "C67", "title": "palPlanet units and status", "statement": "palPlanet returns positions unchanged from the ephemeris and velocities divided by 86400, and maps the status as documented.", "quantifier": "all dates and planet numbers", "why_tests_cant": "Universal over arguments.", "anchors": ["palPlanet.c:palPlanet"]}
{"id": "C68", "title": "palRdplan body selection", "statement": "palRdplan treats planet numbers outside 0..8 as the Sun, and gives a non-negative apparent diameter not exceeding pi.", "quantifier": "all planet numbers, dates and sites", "why_tests_cant": "Universal over integers.", "anchors": ["palRdplan.c:palRdplan"]}
{"id": "C69", "title": "palDfltin never leaves the string and always advances", "statement": "palDfltin, started inside the string, reads nothing beyond the terminator, leaves nstrt between its old value and the terminator, strictly advances whenever it reports a number, gives jflag in {-1,0,1,2} and with jflag=1 leaves the result unchanged.", "quantifier": "every string and start position", "why_tests_cant": "Memory safety of the scan has to hold for every string.", "anchors": ["palDfltin.c:palDfltin"]}
{"id": "C70", "title": "palObs matches up to the first space and accepts abbreviations", "statement": "As documented, palObs(0,c) compares c only up to its first space, and an abbreviated identifier selects the first station it abbreviates.", "quantifier": "every search string", "why_tests_cant": "Universal over strings; tests only use full identifiers.", "anchors": ["palObs.c:palObs"]}
{"id": "C71", "title": "palDmat accepts every non-singular matrix", "statement": "As documented, a non-singular matrix gives jf=0.", "quantifier": "every order and every non-singular matrix", "why_tests_cant": "The failing inputs are the matrices of small determinant; tests use entries near 1.", "anchors": ["palDmat.c:palDmat"]}
{"id": "C72", "title": "palFitxy succeeds for every non-degenerate set of samples", "statement": "For at least 3 non-collinear samples (6 coefficients) or 2 distinct samples (4 coefficients) palFitxy reports success.", "quantifier": "every number of samples and all positions", "why_tests_cant": "The failing inputs are samples in small units such as radians over an arcsecond field; tests use order-one plate coordinates.", "anchors": ["palFitxy.c:palFitxy", "palDmat.c:palDmat"]}
{"id": "C73", "title": "palDtps2c solutions are useful", "statement": "As documented, when palDtps2c reports two solutions both are useful, i.e. both tangent points have declinations in the range +/-90 degrees.", "quantifier": "every star and tangent-plane coordinates", "why_tests_cant": "Fails only for particular positions around the pole.", "anchors": ["palDtps2c.c:palDtps2c"]}
{"id": "C74", "title": "Rotation vectors and matrices correspond", "statement": "palDav2m gives a proper rotation about the given vector by its length; palDm2av recovers the vector from the matrix for less than half a turn and the matrix is recovered from the vector for every rotation other than a half turn, for which palDm2av returns the null vector.", "quantifier": "every rotation vector and every rotation matrix", "why_tests_cant": "Infinite domains with singular sets.", "anchors": ["palOne2One.c:palDav2m", "palOne2One.c:palDm2av"]}
{"id": "C75", "title": "Bearings are polar coordinates about the first point", "statement": "palDbear with palDsep gives the polar coordinates of the second point about the first (north and east components), zero when there is no direction; palDpav agrees with palDbear for vectors of any length unless the first point is a pole, where it returns zero.", "quantifier": "every pair of points and vectors", "why_tests_cant": "Infinite domain with singular sets.", "anchors": ["palOne2One.c:palDbear", "palOne2One.c:palDpav"]}
{"id": "C76", "title": "palGe50 adds the E-terms to the rotated galactic direction", "statement": "palGe50 turns galactic coordinates to B1950 by a matrix orthogonal to 2e-12 and adds the E-terms, so that palSubet at 1950 recovers the turned direction within 1e-11; that turned direction is the one of the IAU 1958 definition (pole at B1950 192.25, +27.4 degrees, node at longitude 33 degrees) to 4e-11; RA in [0,2pi).", "quantifier": "every galactic position", "why_tests_cant": "Infinite domain.", "anchors": ["palGe50.c:palGe50", "palSubet.c:palSubet"]}
{"id": "C77", "title": "palEvp with no epoch refers to the equinox of date", "statement": "As documented, for deqx<=0 palEvp refers all vectors to the mean equator and equinox of the epoch date itself.", "quantifier": "all dates and all deqx<=0", "why_tests_cant": "Requires comparing frames for every date.", "anchors": ["palEvp.c:palEvp"]}
{"id": "C78", "title": "Observatory positions lie on the WGS84 ellipsoid", "statement": "palGeoc gives, for height 0, a point of the WGS84 ellipsoid whose normal has latitude p, and moves along that normal with height; palPvobs uses the same position, up to the different astronomical units of the two functions (relative 5e-9).", "quantifier": "all latitudes and heights", "why_tests_cant": "Infinite domain.", "anchors": ["palGeoc.c:palGeoc", "palPvobs.c:palPvobs"]}
{"id": "C79", "title": "palMapqk space motion", "statement": "With light deflection and aberration off palMapqk gives the direction of the turned vector: direction + interval x space velocity - parallax x Earth position, the space velocity being the rate of change of the moving star's vector (proper motions in both coordinates and radial velocity). With them on, palMapqk gives what palMapqkz gives for that direction, within (600 gr2e + 1.2 |k-1|) v^2, k being the length of the vector.", "quantifier": "all star data and all star-independent parameters", "why_tests_cant": "Infinite domain; sign and factor errors show only in combinations of inputs.", "anchors": ["palMapqk.c:palMapqk"]}
{"id": "C80", "title": "palRefro's limits keep it from dividing by zero", "statement": "The limits palRefro and palRefco impose on their arguments (to prevent arithmetic exceptions) exclude division by zero in the vapour pressure and in the dry/wet exponents.", "quantifier": "all atmospheric parameters", "why_tests_cant": "The failing parameters form a surface in parameter space; tests use standard atmospheres.", "anchors": ["palRefro.c:palRefro"]}
{"id": "C81", "title": "palAop and palOap are self-consistent to a microarcsecond", "statement": "As documented: palOap (palOapqk) with the same parameters undoes palAop (palAopqk) to better than one microarcsecond all over the celestial sphere.", "quantifier": "all apparent places, sites and atmospheres", "why_tests_cant": "Infinite domain; the claim is about the whole sphere.", "anchors": ["palAopqk.c:palAopqk", "palOapqk.c:palOapqk", "palAop.c:palAop", "palOap.c:palOap"]}
{"id": "C82", "title": "Elements, plane and size of the orbit", "statement": "The state that palEl2ue refers its universal elements to lies in the orbit plane given by inclination and node on the J2000 ecliptic, at every date; its angular momentum is that of perihelion distance q, eccentricity e and combined mass, up to a stated relative error of the series and of the Kepler residual.", "quantifier": "all acceptable elements of the three forms and all dates", "why_tests_cant": "Universal over element sets and dates.", "anchors": ["palEl2ue.c:palEl2ue"]}
{"id": "C83", "title": "Elements at perihelion", "statement": "At the time of perihelion palEl2ue delivers exactly the perihelion state: distance q in the direction given by argument of perihelion, inclination and node, and speed sqrt(mu(1+e)/q) at right angles in the direction of motion, whatever the form of the elements.", "quantifier": "all acceptable elements whose perihelion falls on the date", "why_tests_cant": "Universal over the three forms of elements; sign and conversion errors show up in special cases only.", "anchors": ["palEl2ue.c:palEl2ue"]}
{"id": "C84", "title": "palPlanel agrees with palEl2ue", "statement": "palPlanel succeeds exactly when palEl2ue does, with the position and velocity the elements are referred to, and otherwise reports the status of palEl2ue and leaves pv unchanged.", "quantifier": "all elements and dates", "why_tests_cant": "Universal over failures and successes.", "anchors": ["palPlanel.c:palPlanel", "palEl2ue.c:palEl2ue", "palUe2pv.c:palUe2pv"]}
{"id": "C85", "title": "palUe2el agrees with palPv2el", "statement": "Conventional elements obtained from a state vector by way of universal elements (palPv2ue, then palUe2el) are those palPv2el gives directly.", "quantifier": "all state vectors, masses and forms", "why_tests_cant": "Infinite domain.", "anchors": ["palUe2el.c:palUe2el", "palPv2el.c:palPv2el", "palPv2ue.c:palPv2ue"]}
{"id": "C86", "title": "palPv2el elements describe the state", "statement": "The osculating elements palPv2el delivers describe exactly the state they were made from: with inclination, node, argument of perihelion, eccentricity, mean distance or perihelion distance, mean anomaly or longitude or epoch of perihelion of the documented form, Kepler's equation for the ellipse, hyperbola or parabola gives back the position and velocity; the mean motion obeys Kepler's third law.", "quantifier": "all state vectors, masses and forms whose eccentricity is not within 1e-8 of one, and exact parabolas", "why_tests_cant": "Infinite domain with case distinctions (ellipse, hyperbola, parabola, three forms) and indeterminate angles.", "anchors": ["palPv2el.c:palPv2el"]}
{"id": "C87", "title": "palDmoon velocity is the derivative of its position", "statement": "The velocity palDmoon returns is the exact time derivative (per second) of the lunar theory's position, seen in the equatorial system of date; the returned position is differentiable in the date and its derivative is 86400 times the returned velocity to within 1e-8 of the distance per day (the rotation of the system of date), with no jump where the mean arguments pass 360 degrees. The position is that of Meeus's published series.", "quantifier": "every date (observable form: thirty centuries either side of 1900)", "why_tests_cant": "Hundreds of hand-differentiated terms: a wrong derivative term of small amplitude passes a test with realistic tolerance, and the reduction of angles could jump at isolated dates.", "anchors": ["palDmoon.c:palDmoon"]}
{"id": "C88", "title": "palDmoon stays on the Moon's orbit", "statement": "For every date within thirty centuries of 1900 palDmoon returns a finite position between 355600 and 418400 km from the Earth, with a declination not above 30 degrees, and the ecliptic longitude always increases, by 10 to 16.5 degrees a day.", "quantifier": "every date within thirty centuries of 1900", "why_tests_cant": "Continuum of dates; series of 126 terms whose sum a test can only sample.", "anchors": ["palDmoon.c:palDmoon"]}
{"id": "C89", "title": "Sexagesimal fields show the rounded value", "statement": "palDd2tf, palDr2tf and palDr2af show the sign and the size of the interval or angle rounded (halves away from zero) to the requested place, in fields that are in range (minutes and seconds 0-59, fraction below 10^ndp), for -9 to 9 places; outside, or with too many hours, an int overflows. An interval below a day can show 24 hours.", "quantifier": "all intervals, angles and numbers of places", "why_tests_cant": "Carries happen at isolated values; negative ndp changes the unit; tests sample.", "anchors": ["palOne2One.c:palDd2tf", "palOne2One.c:palDr2tf", "palOne2One.c:palDr2af"]}
{"id": "C90", "title": "Sexagesimal round trip and status", "statement": "palDtf2d, palDtf2r and palDaf2r turn fields in range into an interval or angle that palDd2tf, palDr2tf and palDr2af turn back into exactly the same fields, and the status tells the first field out of range; fields out of range are nevertheless converted, without their signs.", "quantifier": "all fields and places", "why_tests_cant": "Infinite domain; a half-unit error shows at isolated values.", "anchors": ["palOne2One.c:palDtf2d", "palOne2One.c:palDtf2r", "palOne2One.c:palDaf2r", "palOne2One.c:palDd2tf"]}
{"id": "C91", "title": "palAoppa's sidereal time", "statement": "The local apparent sidereal time palAoppa computes is Greenwich mean sidereal time plus longitude, UT1-UTC and the equation of the equinoxes: within 18.2 arcseconds of the mean sidereal time, and within 0.82 arcseconds of the textbook equation of the equinoxes, at every date between 1900 and 2100.", "quantifier": "all dates between 1900 and 2100, all sites", "why_tests_cant": "A 194-term series; a sign error in the leading terms or a unit error shows at any date but a bound over all dates is beyond tests.", "anchors": ["palAoppa.c:palAoppa", "palAoppat.c:palAoppat"]}
{"id": "C92", "title": "palAoppat can replace palAoppa for a while", "statement": "The equation of the equinoxes is a smooth function of the date (reduction of the arguments leaves no jump), and changes by less than a quarter of an arcsecond a day, so that parameters brought to another date by palAoppat differ from fresh ones of palAoppa only in longitude element and sidereal time, by less than a quarter of an arcsecond per day.", "quantifier": "all pairs of dates between 1900 and 2100, all sites", "why_tests_cant": "Jumps at isolated dates would escape sampling.", "anchors": ["palAoppa.c:palAoppa", "palAoppat.c:palAoppat"]}
{"id": "C93", "title": "Greenwich mean sidereal time", "statement": "palGmst and palGmsta return in [0,2pi) the Earth rotation angle plus accumulated precession, however the date is split between the arguments of palGmsta; between 1900 and 2100 they agree within 0.3 arcseconds with the sidereal time inside palAoppa/palAoppat, and advance at the sidereal rate.", "quantifier": "all dates and times", "why_tests_cant": "Splits of the date and wraps at 2pi are infinitely many.", "anchors": ["palOne2One.c:palGmst", "palOne2One.c:palGmsta", "palAoppat.c:palAoppat"]}
{"id": "C94", "title": "FK5 and Hipparcos frames", "statement": "palFk5hz turns a position from FK5 to Hipparcos by the published angles and rates at the epoch, palHfk5z undoes it exactly, everywhere on the sphere, and the proper motion palHfk5z returns is the rate of change with epoch of the FK5 position it returns (but zero at a pole, where the star moves too).", "quantifier": "all positions and epochs", "why_tests_cant": "Infinite domain; sign errors in the spin are a milliarcsecond a year and cancel in a there-and-back test.", "anchors": ["palOne2One.c:palFk5hz", "palOne2One.c:palHfk5z"]}
{"id": "C95", "title": "palRefcoq quick refraction constants", "statement": "Within its limits and unless water boils at the temperature and pressure, palRefcoq gives Green's constants for the published refractivities of light and radio waves; A is positive for light, B negative in natural conditions, light bends less and radio more in humid air, blue more than red; no air, no refraction; arguments out of range are replaced by the limits, which do not exclude division by zero; agrees with palAtmdsp in dry air.", "quantifier": "all temperatures, pressures, humidities and wavelengths", "why_tests_cant": "Infinite domain; monotonicity and the singular surface are universal statements.", "anchors": ["palOne2One.c:palRefcoq", "palAtmdsp.c:palAtmdsp"]}
{"id": "C96", "title": "palPm follows a star in straight uniform motion", "statement": "Up to an apparent speed of half that of light palPm gives for every epoch the direction in which light shows a star moving uniformly on a straight line, at less than light speed, from the position given at the first epoch at the distance given by the parallax, in the plane of line of sight and proper motion; up to a tenth of light speed the velocity satisfies Stumpff's equations, and the rate of change of the position at the first epoch is the given proper motion; at the same epoch nothing changes; the position is always set if there is any proper motion. Above half the speed of light, hence also for most stars given without parallax, the motion is silently ignored; a star without proper motion that reaches the observer gives no result.", "quantifier": "all star data and all pairs of epochs", "why_tests_cant": "Infinite domain; the iteration inside must converge for every star and the failing cases are exceptional inputs.", "anchors": ["palPm.c:palPm"]}
{"id": "C97", "title": "Precession with the IAU 2006 angles", "statement": "With the IAU 2006 precession (any nutation series) palPrec, palPrenut and palNut always return proper rotations and ecliptic conversions undo each other at every date; palPrenut from epoch 2000 is exactly palNut after palPrec, and from any epoch of 1900-2100 it is precession back to 2000 followed by that, to 0.11 arcsec plus 8.5 arcsec times the square of the centuries from 2000; between 1900 and 2100 precession is within 13.5 arcsec a turn about the ecliptic pole of J2000 by 50.38481 arcsec a year; palPrec, although it multiplies in the wrong order and keeps the frame bias, is within 1.33 arcsec of the correct precession between any two epochs of 1900-2100, but not exact: it misplaces the pole of 1900 by over 0.045 arcsec when going to 2100, and from 2000 to 2000 gives the frame bias instead of the identity.", "quantifier": "all pairs of epochs between 1900 and 2100, all directions, all dates and nutations", "why_tests_cant": "A continuum of epochs and directions; the wrong order shows at the hundredth of an arcsecond, within the tolerance of tests.", "anchors": ["palPrec.c:palPrec", "palPrenut.c:palPrenut", "palNut.c:palNut", "palEqecl.c:palEqecl", "palEcleq.c:palEcleq"]}
{"id": "C98", "title": "Sexagesimal conversions in double precision", "statement": "With all arithmetic rounded to double precision: palDd2tf writes well-formed fields within half of the last place plus 3.4e-16 of the value; fields written down and typed in again (seconds and decimals read as the nearest double) come back unchanged from palDtf2d/palDd2tf and palDtf2r/palDr2tf with up to nine places and palDaf2r/palDr2af with up to eight.", "quantifier": "all fields in range, all intervals, all roundings to nearest (either tie rule), both versions of ERFA's integer rounding", "why_tests_cant": "3e15 sets of fields; a lost last digit shows up at isolated values.", "anchors": ["palOne2One.c:palDd2tf", "palOne2One.c:palDr2tf", "palOne2One.c:palDr2af", "palOne2One.c:palDtf2d", "palOne2One.c:palDtf2r", "palOne2One.c:palDaf2r"]}
{"id": "C99", "title": "Angles normalised in double precision", "statement": "With arithmetic rounded to double precision and the stored value of 2pi: palDrange returns a double within +/-pi exactly congruent to the angle modulo the stored 2pi (and modulo the true one within 4e-17(|angle|+4)) and palDranrm one from 0 to the stored 2pi, below the true 2pi; angles in range are unchanged. palDranrm can return the stored 2pi itself (tiny negative angles), which normalised again gives 0; the single-precision palRanorm returns an angle from 0 to 2pi rounded to single precision, congruent to the argument to single-precision accuracy, which can be above 2pi.", "quantifier": "all double-precision angles up to 2^1000", "why_tests_cant": "Failures are confined to angles of one sign below 1e-16.", "anchors": ["palDrange.c:palDrange", "palOne2One.c:palDranrm", "palRanorm.c:palRanorm"]}
{"id": "C100", "title": "Epochs in double precision", "statement": "With arithmetic rounded to double precision palEpj, palEpb, palEpj2d and palEpb2d are accurate to 2e-12 years and 1.5e-9 days, return the argument there and back within 3e-9 days or 1e-11 years (palEpco: 2e-11), and never reverse the order of two dates or epochs.", "quantifier": "all dates within a million days of MJD 0, all epochs from 0 to 4500 (order: all numbers up to 1e20)", "why_tests_cant": "Rounding errors at untested dates; monotonicity is about every pair of neighbouring numbers.", "anchors": ["palOne2One.c:palEpj", "palOne2One.c:palEpb", "palOne2One.c:palEpj2d", "palOne2One.c:palEpb2d", "palEpco.c:palEpco"]}
{"id": "C101", "title": "Galactic and supergalactic coordinates in double precision", "statement": "With arithmetic rounded to double precision and library functions good to one unit in the last place, palEqgal, palGaleq, palGalsup and palSupgal give the direction of exact arithmetic to 1.5e-14 rad everywhere (longitude from 0 to the stored 2pi), and round trips return the direction as well as exact arithmetic does, to 1.2e-13.", "quantifier": "all directions, poles included; either sign of zero components; every rounding to nearest and every library of that accuracy", "why_tests_cant": "Rounding errors near the poles and at the wrap of longitude occur at untested directions.", "anchors": ["palEqgal.c:palEqgal", "palGaleq.c:palGaleq", "palGalsup.c:palGalsup", "palSupgal.c:palSupgal"]}
{"id": "C102", "title": "Horizon coordinates in double precision", "statement": "With rounded arithmetic palDe2h and palDh2e give the direction of exact arithmetic to 9e-15 rad at every latitude, zenith and poles included, with azimuth from 0 to the stored 2pi; round trips return the direction to 1.7e-14.", "quantifier": "all hour angles, declinations and latitudes; either sign of zero components", "why_tests_cant": "The azimuth near the zenith and the sign of zero are where rounding matters.", "anchors": ["palDe2h.c:palDe2h", "palDh2e.c:palDh2e"]}
{"id": "C103", "title": "Separations in double precision", "statement": "With rounded arithmetic palDsep is within 1.4e-14 rad of the exact separation for all pairs of points, coincident and opposite included; it is exactly the same with the points exchanged and exactly zero for a point and itself.", "quantifier": "all pairs of directions", "why_tests_cant": "Loss of accuracy at tiny or 180 degree separations (as of arc cosine formulae) shows only at special pairs; exact symmetry is about all pairs.", "anchors": ["palOne2One.c:palDsep", "palOne2One.c:palDsepv"]}
{"id": "C104", "title": "Vectors in double precision", "statement": "With rounded arithmetic palDcc2s gives the direction of any vector of length 1e-70 to 1e14 to 2e-15 rad, and palDvn the modulus to 6e-16 (relative) and the unit vector to 8e-16 in each component for lengths 1e-29 to 1e14; for a vector of length 2^-540 the squares underflow and palDvn gives zero and the null vector.", "quantifier": "all vectors of those lengths", "why_tests_cant": "Underflow and cancellation occur at untested scales.", "anchors": ["palOne2One.c:palDcc2s", "palOne2One.c:palDvn"]}
{"id": "C105", "title": "TAI-UTC from the leap-second table", "statement": "For every date the calendar accepts palDat gives TAI-UTC as published: zero before 1960, the linear laws to 1972, then ten seconds plus one for every leap second up to the date (27 of them); from 1972 the value is a whole number of seconds from 10 to 37 that grows between two dates by the number of leap seconds between them; palDtt is 32.184 s more. TAI, the UTC date plus palDat's seconds, strictly increases with UTC from 1968 February on; at the step of that day it runs backwards.", "quantifier": "all Modified Julian Dates of the calendar's range, in particular every fraction of a day next to a leap second", "why_tests_cant": "The step must come exactly at midnight of the right day for each of 42 table entries and hold at every instant between.", "anchors": ["palDat.c:palDat", "palDtt.c:palDtt"]}
{"id": "C106", "title": "Equation of the equinoxes", "statement": "Between 1900 and 2100 palEqeqx returns the nutation in longitude times the cosine of the IAU 2006 obliquity plus the complementary terms, to 3 milliarcseconds, whatever the nutation (up to 20 and 11 arcseconds); so it stays below 18.4 arcseconds; and at every date palGmst plus palEqeqx is the Earth rotation angle minus the equation of the origins of the matrix palPrenut uses.", "quantifier": "all dates 1900-2100 and all nutation series (sum with palGmst: all dates)", "why_tests_cant": "The value is the difference of two large angles found through a matrix; wraps and cancellation of the precession polynomials must hold at every date.", "anchors": ["palOne2One.c:palEqeqx", "palOne2One.c:palGmst"]}
{"id": "C107", "title": "Rotation matrices and products in double precision", "statement": "With rounded arithmetic and library functions good to one unit in the last place: matrix and vector products (palDmxv, palDimxv, palDmxm, palDvdv, palDvxv) are within 4.5e-16 of the sum of the absolute values of the terms; palDeuler gives for every order string and all angles the exact rotation to 5.4e-15 and its transpose inverts it to 1.1e-14, so that rotating a vector and rotating it back returns it to 1.4e-14 of its length; palDav2m is right to 5.6e-15 plus 1.1e-15 per radian.", "quantifier": "all matrices and vectors up to 1e14, all order strings, all angles, all rotation vectors up to 100 rad, every rounding to nearest and every such library", "why_tests_cant": "Accuracy has to hold for all real inputs; a test compares a few values.", "anchors": ["palOne2One.c:palDmxv,palDimxv,palDmxm,palDvdv,palDvxv,palDav2m", "palDeuler.c:palDeuler"]}
{"id": "C108", "title": "palMapqkz applies relativistic annual aberration", "statement": "With light deflection off palMapqkz moves every star along the great circle towards the direction of the Earth's velocity, the cosine of the angle from it changing from c to (c+b)/(1+b c), b being the speed in units of that of light.", "quantifier": "every star and every speed below that of light", "why_tests_cant": "Infinite domain; second-order errors are below test tolerances.", "anchors": ["palMapqkz.c:palMapqkz", "palMappa.c:palMappa"]}
{"id": "C109", "title": "palMapqkz light deflection", "statement": "With aberration off palMapqkz moves a star at the angle D from the Sun directly away from the Sun by the angle whose tangent is gr2e/tan(D/2) (1.75 arcseconds at the limb for the Earth); nearer than 1-cos D = 1e-5 the tangent is 1e5 gr2e sin D instead.", "quantifier": "every star, Sun direction and deflection constant", "why_tests_cant": "Infinite domain; singular near the Sun.", "anchors": ["palMapqkz.c:palMapqkz"]}
{"id": "C110", "title": "Order of the effects and contents of the parameter block", "statement": "palMapqkz deflects first and applies aberration to the deflected direction (within 240000 gr2e^2 v); palMappa fills the block with the interval, positions, velocity in units of c and matrix that palEpj, palEvp and palPrenut give for the same date and equinox.", "quantifier": "every star, date and equinox", "why_tests_cant": "Infinite domain; the order shows only at second order.", "anchors": ["palMapqkz.c:palMapqkz", "palMappa.c:palMappa"]}
{"id": "C111", "title": "palUe2pv follows two-body motion", "statement": "Whenever palUe2pv succeeds on consistent elements of a bound or parabolic orbit (not a radial one), the position and velocity it returns are a point of the one two-body motion (Newton's equation of motion, inverse-square attraction) through the reference state: for a bound orbit the time of that point is the time asked for within 1e-11 (1+k) (1 + n|dt|) of the mean anomaly (k the square root of minus the energy, n the mean motion, dt the time since the epoch), the position is right to twice that fraction of the size of the orbit, and the velocity correspondingly; for a parabolic one the velocity is exactly that of the motion at a time within 1e-13 of the greatest distance among the trial points of the iteration, and the position differs from that of the same time only by the time error times the reference velocity. So a state vector given to palPv2ue and propagated by palUe2pv follows the true motion, however long the time and whichever prediction was made before.", "quantifier": "all consistent element sets with energy not positive, all dates, every earlier prediction", "why_tests_cant": "The iteration starts from the previous prediction and stops on a tolerance; series, angle-halving and secant steps must be right for every anomaly, and the claim is about the solution of a differential equation.", "anchors": ["palUe2pv.c:palUe2pv", "palPv2ue.c:palPv2ue"]}
{"id": "C112", "title": "palPlanel follows Kepler's laws", "statement": "Whenever palPlanel reports success the position and velocity it returns are those of a body moving on the conic the elements describe, according to Kepler's laws, at the date asked for: for an ellipse, in any of the three forms of elements, Kepler's equation at the mean anomaly given by the third law, with position right to 4e-11 N k a and velocity correspondingly (N = (1 + sqrt(mu/a)) (1 + |M|), k = sqrt((1+e)/(1-e))); for a parabola exactly Barker's equation. For a hyperbola the error is at most 8e-13 (1 + sqrt(mu/a)) (1 + Z)^3 k a (e cosh Z - 1), Z = e |M|/(e-1), k = sqrt((e+1)/(e-1)), which is small near perihelion, but far from it the claim fails: with perihelion distance 1 AU and eccentricity 25/24 palPlanel reports success for a date 17440 days after perihelion and returns a position more than 300 AU from the orbit's.", "quantifier": "all accepted elements, all dates", "why_tests_cant": "The iteration inside must have converged to the right root for every eccentricity and anomaly; false convergence happens at untested combinations.", "anchors": ["palPlanel.c:palPlanel", "palEl2ue.c:palEl2ue", "palUe2pv.c:palUe2pv"]}
{"id": "C113", "title": "Elements fitted by palPv2el and given to palPlanel predict the motion", "statement": "Osculating elements that palPv2el makes of a state vector, in whichever form, given to palPlanel for another date, yield the position and velocity on the two-body motion (Newton's equation of motion) through the original state whenever palPlanel reports success: for an ellipse to 4e-11 N k a (a from the energy of the state, N = (1 + sqrt(mu/a)) (1 + 2 pi + n |time elapsed|), k = sqrt((1+e)/(1-e))) and the velocity correspondingly, exactly for an exact parabola, and for a hyperbola with the error bound of C112, small near perihelion. In particular for the same date the state comes back. In forms 2 and 3 the mass of the body has to be zero.", "quantifier": "all states and dates, masses and forms for which both functions succeed", "why_tests_cant": "Two functions and a file of elements between them; sign, quadrant and multiple-of-2pi errors cancel for some states; the comparison is with the solution of a differential equation.", "anchors": ["palPv2el.c:palPv2el", "palPlanel.c:palPlanel", "palEl2ue.c:palEl2ue", "palUe2pv.c:palUe2pv"]}
{"id": "C114", "title": "Output arrays may overlap input arrays", "statement": "palRefv, palInvf, palDmxv, palDimxv, palDmxm, palDvxv, palDav2m and palDm2av store the result they compute from the original contents of their arguments however the output array overlaps the inputs (so they can work in place), and change nothing outside the output array. palDvn can work in place, but not with vectors that overlap partly; palPxy can put the predicted positions in the place of the measured ones, but put in the place of the expected ones they give RMS values of zero whatever the data.", "quantifier": "all addresses and all contents of memory", "why_tests_cant": "The number of possible overlaps times contents is unbounded, and tests use separate arrays.", "anchors": ["palRefv.c:palRefv", "palInvf.c:palInvf", "palPxy.c:palPxy", "palOne2One.c:palDmxv,palDimxv,palDmxm,palDvxv,palDav2m,palDm2av,palDvn"]}
{"id": "C115", "title": "The parallactic angle", "statement": "palPa is the bearing palDbear gives of the zenith as seen from the star, and it converts position angles: for any second point, the bearing measured from the pole is the bearing measured from the zenith (azimuth and elevation of both points by palDe2h) plus palPa. It lies between -pi and +pi, is positive west of the meridian and negative east of it, 0 or pi on the meridian, and zero at the zenith; at the celestial pole it is pi minus the hour angle, not zero.", "quantifier": "every star, second point and latitude (the star not at the zenith for the conversion)", "why_tests_cant": "Quadrant and sign errors show only in some parts of the sky; the identity is over the whole sphere.", "anchors": ["palPa.c:palPa", "palDe2h.c:palDe2h", "palOne2One.c:palDbear"]}
{"id": "C116", "title": "Bearings in double precision", "statement": "With rounded arithmetic and library functions good to one unit in the last place: palDbear is right, up to whole turns, to 2e-14 divided by the sine of the separation (longitudes up to two turns apart), palPa to 1e-14 divided by the cosine of the elevation, palDpav of vectors of length 0.99 to 1.01 to 1.3e-13 divided by the sine of the separation and the cosine of the first point's latitude; all lie between -pi and +pi to a rounding error.", "quantifier": "all points, vectors, hour angles and latitudes, every rounding to nearest and every such library", "why_tests_cant": "Accuracy near coincident and opposite points has to hold for all inputs; tests use well separated points.", "anchors": ["palOne2One.c:palDbear,palDpav", "palPa.c:palPa"]}
{"id": "C117", "title": "Layout of the parameter blocks and element arrays", "statement": "palMappa and palAoppa fill amprms[21] and aoprms[14] in the documented order and change nothing else, palAoppat only the sidereal time (aoprms[13]); palMapqk, palMapqkz, palAmpqk, palAopqk and palOapqk read those elements and store nothing but their results, so that a block filled by one call and used by another gives what palMap, palAmp, palAop and palOap give, wherever block and results are. palPv2ue fills u[13] in the documented order, even if the position and velocity are in the same memory, and leaves everything unchanged if its status is not zero; palUe2pv changes, for separate arrays, the position and velocity and only u[11] and u[12] of the elements, and nothing if it fails; palUe2el changes nothing; palPertue changes only u[13], and nothing after an error.", "quantifier": "all addresses, contents of memory, arguments and statuses", "why_tests_cant": "An element number wrong in one writer and its reader alike passes every round-trip test but breaks programs that use the documented layout; untouched memory must be checked at every address.", "anchors": ["palMappa.c:palMappa", "palMapqk.c:palMapqk", "palMapqkz.c:palMapqkz", "palAmpqk.c:palAmpqk", "palAoppa.c:palAoppa", "palAoppat.c:palAoppat", "palAopqk.c:palAopqk", "palOapqk.c:palOapqk", "palPv2ue.c:palPv2ue", "palUe2pv.c:palUe2pv", "palUe2el.c:palUe2el", "palPertue.c:palPertue"]}
{"id": "C118", "title": "Apparent size of the Moon and the Sun", "statement": "For every date within thirty centuries of 1900 and every observer palRdplan gives the Moon an apparent diameter between 28.1 and 34.3 arcminutes, that of a sphere of radius 1738 km at a distance differing from palDmoon's by at most the Earth's equatorial radius, whatever the sidereal time and nutation; and the Sun one between 31.3 and 32.7 arcminutes whenever the ephemeris puts the Earth-Moon barycentre between 0.98 and 1.02 AU from it.", "quantifier": "all those dates, all longitudes and latitudes, all ephemerides and nutation series", "why_tests_cant": "A continuum of dates and observers; extremes of the lunar distance occur at untested dates.", "anchors": ["palRdplan.c:palRdplan", "palDmoon.c:palDmoon", "palPvobs.c:palPvobs"]}
{"id": "C119", "title": "Tangent-plane projection in double precision", "statement": "With IEEE double arithmetic and a C library of ordinary accuracy palDs2tp reports the right status unless the cosine of the star's distance from the tangent point is within 4e-15 of a limit, its coordinates are good to 4e-15(1+|coordinate|)/cosine, palDtp2s finds the direction belonging to any coordinates up to 1e13 within 1e-14, and projecting and deprojecting returns every star with status 0 within 4e-14, poles and edge included.", "quantifier": "all stars and tangent points with right ascensions at most two turns apart, all coordinates up to 1e13, every rounding to nearest and every library of the assumed accuracy", "why_tests_cant": "rounding errors and near-singular geometries (poles, stars nearly 90 degrees away) cannot be enumerated", "anchors": ["palDs2tp.c:palDs2tp", "palDtp2s.c:palDtp2s"]}
{"id": "C120", "title": "Speed and parallax of the Moon", "statement": "For every date within thirty centuries of 1900 the speed palDmoon returns is between 4.8e-9 and 9.3e-9 AU per second (0.72 to 1.39 km/s), and the apparent place palRdplan gives the Moon is never more than 1.03 degrees from the geocentric direction of palDmoon turned to the equator and equinox of date, for every observer, whatever the sidereal time and nutation.", "quantifier": "all those dates, all longitudes and latitudes, all nutation series", "why_tests_cant": "A continuum of dates and observers.", "anchors": ["palDmoon.c:palDmoon", "palRdplan.c:palRdplan", "palPvobs.c:palPvobs"]}
{"id": "C121", "title": "palDmat uses only its arrays", "statement": "For every order, all addresses of separate arrays and every contents of memory, palDmat reads and writes only the n*n doubles of the matrix, the n of the vector and the n ints of the workspace (which need not be initialised), and leaves there the inverse, the solution and, in d, the determinant if jf=0, d=0 otherwise.", "quantifier": "all orders, addresses and contents of memory", "why_tests_cant": "Out-of-bounds accesses through running row pointers happen at particular orders and pivot patterns; their number is unbounded.", "anchors": ["palDmat.c:palDmat"]}
{"id": "C122", "title": "Radial distortion in double precision", "statement": "With IEEE double arithmetic and a C library of ordinary accuracy palUnpcd returns the exact inverse of the distortion within 3.2e-14/sqrt(disco) (pincushion, out to 1/sqrt(disco)) or 7e-15/sqrt(-disco) (barrel, out to 0.26/sqrt(-disco)) in each coordinate, and undoes palPcd within 4.7e-14/sqrt(disco) or 1.2e-14/sqrt(-disco); the accuracy is absolute only: a point very near the centre can be moved onto it.", "quantifier": "all coefficients of size 1e-8 to 1e8, all points in the stated discs at least 1e-19 (1e-18) from the centre, every rounding to nearest and every library of the assumed accuracy", "why_tests_cant": "cancellation in the solution of the cubic and the choice between its roots depend on every coefficient and radius", "anchors": ["palUnpcd.c:palUnpcd", "palPcd.c:palPcd"]}
{"id": "C123", "title": "Mean to apparent place and back in double precision", "statement": "With IEEE double arithmetic and a C library of ordinary accuracy palMapqkz and palMapqk (and palAmpqk, for apparent places at least 3.7 degrees from the Sun) return the place exact arithmetic gives from the same parameter block to 2.2e-14, 6e-14 and 4.5e-14 radians, right ascension in [0,2pi] and declination in [-pi/2,pi/2] to 4.5e-16, for every mean place, for the first two also for a star behind the Sun where the denominator of the light deflection loses its digits.", "quantifier": "all mean places, all proper motions up to 3e-4 rad/year, parallaxes up to 1 arcsec, radial velocities up to 300 km/s, all parameter blocks of the sizes of the Earth's orbit within a century of the epoch, every rounding to nearest and every library of the assumed accuracy", "why_tests_cant": "the worst case is the cancellation near the Sun's direction, on a set of directions no sample hits", "anchors": ["palMapqkz.c:palMapqkz", "palMapqk.c:palMapqk", "palAmpqk.c:palAmpqk"]}
{"id": "C124", "title": "Air mass, velocity corrections and delta-T in double precision", "statement": "With IEEE double arithmetic and a C library of ordinary accuracy palAirmas is within 4.7e-13 of the exact value at every zenith distance (on both sides of the limit at 87 degrees), palRvgalc, palRvlg, palRvlsrd and palRvlsrk within 8e-13 km/s in every direction, palRverot within 6e-16 km/s plus 0.52e-16 km/s per radian of hour angle, and palDt within 1e-9 s for every epoch up to 10000 years from the era, next to the breaks between its models too.", "quantifier": "all zenith distances, directions, latitudes, sidereal times (hour angle up to 1e10 rad) and epochs, every rounding to nearest and every library of the assumed accuracy", "why_tests_cant": "rounding at and next to the stored limits, and accumulated errors, concern every input", "anchors": ["palAirmas.c:palAirmas", "palRvgalc.c:palRvgalc", "palRvlg.c:palRvlg", "palRvlsrd.c:palRvlsrd", "palRvlsrk.c:palRvlsrk", "palRverot.c:palRverot", "palDt.c:palDt"]}
{"id": "C125", "title": "Refraction in double precision", "statement": "With IEEE double arithmetic and a C library of ordinary accuracy palRefv gives every component within 1e-15 of exact arithmetic, for every vector of length up to 1.0004 above or below the horizon, and palRefz the refracted zenith distance within 6.4e-14 rad, for every zenith distance from -83 degrees to 10 rad: both models, the point where one hands over to the other, and the range where the refraction is held.", "quantifier": "all those vectors and zenith distances, all refraction constants up to 103 and 0.1 arcsec, every rounding to nearest and every library of the assumed accuracy", "why_tests_cant": "tangents near the horizon amplify rounding errors, and the stored hand-over angle differs from 83 degrees: every input near it can take either branch", "anchors": ["palRefv.c:palRefv", "palRefz.c:palRefz"]}
{"id": "C126", "title": "Observatory position in double precision", "statement": "For every latitude and sidereal time and every height up to 10000 km above or below the ellipsoid, palGeoc and palPvobs as executed in double precision give distances and position components within 2.1e-19 AU (3e-8 m) of exact arithmetic, and palPvobs velocity components within 1.8e-23 AU/s with a third component exactly zero.", "quantifier": "all latitudes, sidereal times and heights in the range, and all libraries and roundings meeting the accuracy assumptions", "why_tests_cant": "the bound must hold for every observatory and instant; tests sample a few", "anchors": ["palGeoc.c:palGeoc", "palPvobs.c:palPvobs"]}
{"id": "C127", "title": "Plate models in double precision", "statement": "palXy2xy in double precision gives each coordinate to 3 units of rounding of the magnitudes of its terms. palInvf in double precision reports status -1 for every model without inverse and leaves the output alone; if the determinant is at least 1e-12 of the products it is the difference of, it reports 0 and its coefficients have a relative error (with respect to the terms) of at most 6e-16 times the condition K of the determinant; forward and back returns every point to 2.1e-15 K times the magnitudes of the terms. Status -1 does not mean that there is no inverse: models of doubles with an inverse exist (all coefficients near 1, or a plain change of scale by 2^-600) for which palInvf reports -1.", "quantifier": "all coefficients and points in a range of 1e-60 to 1e30 and all roundings to nearest", "why_tests_cant": "rounding can hide or create a determinant for particular coefficients only; the bounds must hold for every model and point", "anchors": ["palXy2xy.c:palXy2xy", "palInvf.c:palInvf"]}
{"id": "C128", "title": "RMS residuals in double precision for any number of samples", "statement": "For any number of samples that an int can hold, palPxy in double precision gives predicted coordinates within 3.34e-16 B, where B bounds the expected coordinates and the terms of the predicted ones, and RMS residuals in x and y within 5.6e-16 B plus (6e-17 np + 3.2e-16) of the exact value, and the radial one within 1.2e-15 B plus (9e-17 np + 7e-16) of it.", "quantifier": "all numbers of samples, all samples and models in the range and all roundings to nearest", "why_tests_cant": "errors accumulate with the number of samples, which has no bound a test could reach", "anchors": ["palPxy.c:palPxy", "palXy2xy.c:palXy2xy"]}
{"id": "C129", "title": "Sidereal time in double precision", "statement": "For every UT1 within 547 years of J2000, palGmst in double precision returns a number from 0 to the stored value of 2 pi (which is less than 2 pi) congruent to sidereal time (IAU 2006) within 3.7e-12 radians; so does palGmsta for a whole date and a time within a day, for which nothing is lost in the change to Julian Date; for any other date palGmsta is within 1.9e-9 radians.", "quantifier": "all dates and times in the range and all roundings to nearest", "why_tests_cant": "large day numbers are multiplied and reduced modulo 2 pi, so errors depend on every bit of the date", "anchors": ["palOne2One.c:palGmst", "palOne2One.c:palGmsta"]}
{"id": "C130", "title": "Apparent to observed place in double precision", "statement": "In double precision the hour angle and declination palAopqk returns are the direction of the azimuth and zenith distance it returns, seen from the latitude of the site, to 1.1e-14 radians, and its right ascension, from 0 to 2 pi, is the sidereal time less the hour angle to 5e-15 radians and whole turns: for every place, at any zenith distance and whatever the refraction near the horizon. For every place within 75 degrees of the zenith the azimuth and zenith distance differ by at most 1.1e-13 radians, as directions, from those of exact arithmetic with the same parameters, hour angle, right ascension and declination by at most 3.1e-13.", "quantifier": "all places and parameters in the ranges, all roundings to nearest and all libraries of the stated accuracy", "why_tests_cant": "rounding errors depend on every bit of the input; the zenith and the poles are singular", "anchors": ["palAopqk.c:palAopqk", "palRefz.c:palRefz"]}
{"id": "C131", "title": "Observed to apparent place in double precision", "statement": "For the three kinds of coordinates and every observed direction up to 75.96 degrees from the zenith, the right ascension and declination palOapqk returns in double precision give the direction of exact arithmetic with the same parameters to 2.7e-13 radians; the right ascension is from 0 to 2 pi.", "quantifier": "all observed places and parameters in the ranges, all roundings to nearest and all libraries of the stated accuracy", "why_tests_cant": "rounding errors depend on every bit of the input; the zenith and the poles are singular", "anchors": ["palOapqk.c:palOapqk"]}
{"id": "C132", "title": "Parameters for observed places in double precision", "statement": "For every date within 547 years of J2000, every position, height up to 10000 km, polar motion up to 206 arcsec, UT1-UTC up to a minute and equation of the equinoxes up to 0.01 radians, palAoppa in double precision stores a latitude that with some longitude gives the direction of the site displaced by the polar motion to 4.6e-15 radians, its sine and cosine, the diurnal aberration to 1.2e-20, copies of the meteorological data, the constants of palRefco at that latitude, and that longitude plus equation of the equinoxes plus sidereal UT1-UTC to 8e-16 radians; palAoppat stores the sidereal time of the IAU 1982 formula plus the longitude term to 3.9e-12 radians and whole turns and changes nothing else. With these, palAop returns an hour angle and declination consistent with its azimuth and zenith distance to 1.1e-14 radians and a right ascension consistent with its hour angle to 3.95e-12 radians.", "quantifier": "all dates, sites and places in the ranges, all roundings to nearest, all libraries of the stated accuracy, and any refraction constants and equation of the equinoxes", "why_tests_cant": "large day numbers are multiplied and reduced modulo 2 pi and the poles are singular, so errors depend on every bit of the input", "anchors": ["palAoppa.c:palAoppa", "palAoppat.c:palAoppat", "palAop.c:palAop"]}
{"id": "C133", "title": "Round trip between apparent and observed places in double precision", "statement": "In double precision, with the parameters of a terrestrial observatory (diurnal aberration up to 1.6e-6, refraction constants up to 4e-4 and 5e-7) and for every source up to 75 degrees from the zenith, feeding the azimuth and zenith distance, the hour angle and declination or the right ascension and declination that palAopqk returns into palOapqk gives back the apparent place to 5 microarcseconds; and palAopqk agrees with exact arithmetic and exact sine and cosine of the latitude to 2.4e-14 radians in zenith distance and 3.4e-13 radians in direction.", "quantifier": "all apparent places and parameters in the ranges, all roundings to nearest and all libraries of the stated accuracy", "why_tests_cant": "the errors of both functions and of the approximate refraction and aberration add up, near the zenith and the poles the angles are singular", "anchors": ["palAopqk.c:palAopqk", "palOapqk.c:palOapqk"]}
{"id": "C134", "title": "palAop and palOap undo each other in double precision", "statement": "In double precision, for every date within 547 years of J2000, site up to 10 km high, polar motion up to 206 arcsec, UT1-UTC up to a minute and weather with refraction constants up to 4e-4 and 5e-7, and every source up to 75 degrees from the zenith, feeding any of the three pairs of observed coordinates that palAop returns into palOap with the same site and date gives back the apparent place to 5 microarcseconds.", "quantifier": "all apparent places, sites and dates in the ranges, all roundings to nearest, all libraries of the stated accuracy, and any refraction constants and equation of the equinoxes", "why_tests_cant": "errors of the site, the sidereal time, the rotations and the approximate refraction add up; they depend on every bit of the input", "anchors": ["palAop.c:palAop", "palOap.c:palOap", "palAoppa.c:palAoppa"]}
{"id": "C135", "title": "E-terms and FK4 to FK5 in double precision", "statement": "In double precision, for every position and every epoch within 1000 years of 1950, palAddet, palSubet and palFk45z (zero proper motion in FK5) give the place of exact arithmetic to 5.5e-15, 6.4e-15 and 1.9e-14 radians, with a right ascension between 0 and 2 pi; and for epochs from 1600 to 2400 palAddet undoes palSubet to 2.9e-14 radians and palSubet undoes palAddet to 5.9e-12 radians, the size of the second-order terms the two routines neglect.", "quantifier": "all positions, all epochs in the range, all roundings to nearest and all libraries of the stated accuracy", "why_tests_cant": "the rounding errors depend on every bit of the input, and near the poles right ascension is singular", "anchors": ["palEtrms.c:palEtrms", "palAddet.c:palAddet", "palSubet.c:palSubet", "palFk45z.c:palFk45z"]}
{"id": "C136", "title": "FK5 to FK4 in double precision", "statement": "In double precision, for every star whose proper motions and radial motion add up to at most 39 arcsec per year, palFk524 gives the place of exact arithmetic to 8.5e-15 radians with a right ascension between 0 and 2 pi, the parallax to 3.5e-15 of itself, the radial velocity to (1.42e-15 + 1.19e-15 K) / parallax km/s (K: the total motion in arcsec per century) and, more than 3.5 arcmin from the poles, the proper motions to (9.6e-22 + 8e-22 K) / cos^2 and (3.5e-21 + 2.8e-21 K) / cos radians per year; a parallax that is not positive is returned unchanged with the radial velocity. palFk54z gives the place to 1e-14 radians at epoch 1950 for every position, and to 1.01e-14 radians within 1000 years of 1950 for positions more than 2.9 degrees from the poles. Converting to FK4 with palFk54z and back with palFk45z returns the place to 5.001e-9 radians (1 milliarcsecond) at epoch 1950 for every position, and from 1875 to 2025 outside those caps.", "quantifier": "all stars with the stated motions, all positions, all epochs in the range, all roundings to nearest and all libraries of the stated accuracy", "why_tests_cant": "the rounding errors depend on every bit of the input, and near the poles right ascension and its proper motion are singular", "anchors": ["palFk524.c:palFk524", "palFk54z.c:palFk54z", "palFk45z.c:palFk45z"]}
{"id": "C137", "title": "Precession and ecliptic coordinates in double precision", "statement": "In double precision, within 1000 years of the reference epoch, palPrec, palPrebn and palEcmat give matrices that move no unit vector by more than 1.8e-14, 6e-15 and 2.1e-15 from where the exact matrix takes it. palPreces gives the place of exact arithmetic to 2.1e-14 radians (FK4) or 4.4e-14 radians (FK5) with a right ascension between 0 and 2 pi (and -99 for any other system), and precessing there and back returns the place to 6.1e-14 or 1.4e-13 radians (in FK5 unless both epochs are 2000). palEqecl and palEcleq give the place of exact arithmetic to 3.2e-14 radians and undo each other to 9.6e-14 radians; palGe50 is within 5.3e-14 radians for every position.", "quantifier": "all positions, all epochs and dates in the range, all system names, all roundings to nearest and all libraries of the stated accuracy", "why_tests_cant": "rounding errors depend on every bit of the input, and the error of the angles grows with the time span; a test can only sample epochs and places", "anchors": ["palPrec.c:palPrec", "palPrebn.c:palPrebn", "palPreces.c:palPreces", "palEcmat.c:palEcmat", "palEqecl.c:palEqecl", "palEcleq.c:palEcleq", "palGe50.c:palGe50"]}
{"id": "C138", "title": "Nutation, the Earth ephemeris and the mean-to-apparent parameters in double precision", "statement": "In double precision, for epochs and dates within 1000 years of 2000 and nutation angles of at most 1e-3 radians that the library gives to d <= 1e-14: palNutc returns the angles of the library and the mean obliquity to 2.4e-16 radians; the matrices of palNut and palPrenut take every vector to that of exact arithmetic to 6e-15 + 2d and 1.8e-14 + 2d of its length; palPrenut from 2000 is palPrec followed by palNut to 3.6e-14; palEvp turns the vectors of the ephemeris to the equinox asked for to 1e-14 of their lengths; and for an Earth near 1 AU each number palMappa stores is that of exact arithmetic to a stated bound, the reciprocal Lorentz factor never exceeding 1.", "quantifier": "all dates and equinoxes in the range, all nutation angles and ephemerides in the range, all roundings to nearest and all libraries of the stated accuracy", "why_tests_cant": "the error depends on every bit of the date and of the angles, and the parameters are used for all later places; a test can only sample dates", "anchors": ["palNutc.c:palNutc", "palNut.c:palNut", "palPrenut.c:palPrenut", "palEvp.c:palEvp", "palMappa.c:palMappa"]}
{"id": "C139", "title": "Mean to apparent place and back, from catalogue and date, in double precision", "statement": "In double precision, for an equinox and a date within 1000 years of 2000, an Earth near 1 AU and nutation angles that the library gives to d <= 1e-14, with the parameter block computed by palMappa itself: palMapqkz gives the apparent place of exact arithmetic to 5.3e-14 + 2.1 d radians for every mean place; palMap to 9.5e-14 + 2.1 d radians for moderate proper motion, parallax and radial velocity and at most 99.9 years of motion; palAmp gives the mean place of exact arithmetic to 6.6e-14 + 2.1 d radians for every apparent place at least 3.8 degrees from the Sun; and palAmp undoes palMapqkz to 5.5e-11 radians for every star at least 8.1 degrees from the Sun. Right ascensions are between 0 and 2 pi.", "quantifier": "all places, all dates, equinoxes, ephemerides and nutation angles in the range, all roundings to nearest and all libraries of the stated accuracy", "why_tests_cant": "the rounding errors of the parameters go through every later step and depend on every bit of the input; a test can only sample stars and dates", "anchors": ["palMap.c:palMap", "palAmp.c:palAmp", "palMappa.c:palMappa", "palMapqk.c:palMapqk", "palMapqkz.c:palMapqkz", "palAmpqk.c:palAmpqk"]}
{"id": "C140", "title": "Polar motion in double precision", "statement": "In double precision palPolmo, for a site whose true position is at least 1e-11 radians from the pole, divides by no zero and returns the true longitude and latitude of exact arithmetic to 2e-14 radians on the sphere, and the azimuth correction of exact arithmetic, up to whole turns, to 2.1e-13 radians divided by the cosines of the mean and of the true latitude; the results are in their documented ranges to a rounding error.", "quantifier": "all sites, all polar motions, all roundings to nearest and all libraries of the stated accuracy", "why_tests_cant": "the error grows towards the pole and depends on every bit of the input; tests sample a few sites", "anchors": ["palPolmo.c:palPolmo"]}
{"id": "C141", "title": "FK5 and Hipparcos places in double precision", "statement": "In double precision, within 1000 years of 2000, palFk5hz and palHfk5z return for every star the place of exact arithmetic to 8e-14 radians on the sphere, the results in their documented ranges to a rounding error, and the one undoes the other to 1.6e-13 radians; at least 1e-6 radians from the poles palHfk5z divides by no zero and returns the proper motions of exact arithmetic to 3e-21 radians a year divided by the square of the cosine of the declination in right ascension and 7.5e-21 divided by that cosine in declination.", "quantifier": "all places, all epochs within 1000 years of 2000, all roundings to nearest and all libraries of the stated accuracy", "why_tests_cant": "the error depends on every bit of the input and grows towards the poles; tests sample one star", "anchors": ["palOne2One.c:palFk5hz", "palOne2One.c:palHfk5z"]}
{"id": "C142", "title": "Altazimuth velocities and accelerations in double precision", "statement": "In double precision palAltaz returns the azimuth and elevation of exact arithmetic to 9e-15 radians on the sphere, in their documented ranges to a rounding error, and the parallactic angle, up to whole turns, to 1e-14 radians divided by the cosine of the elevation, everywhere; at least 1e-6 radians from the zenith and the nadir it divides by no zero and returns the velocities and accelerations of exact arithmetic (by C29 the derivatives) to 1.1e-14/c^2 and 8e-14/c^3 in azimuth, 8e-15/c and 4.5e-14/c^2 in elevation, 8e-15/c^2 and 8e-14/c^3 in parallactic angle, c being the cosine of the elevation.", "quantifier": "all hour angles, declinations and latitudes, all roundings to nearest and all libraries of the stated accuracy", "why_tests_cant": "the errors grow towards the zenith as different powers and depend on every bit of the input; tests sample one place", "anchors": ["palAltaz.c:palAltaz"]}
{"id": "C143", "title": "Universal elements in double precision", "statement": "In double precision palPv2ue returns the status of exact arithmetic except within a millionth of its limits of 0.001, leaves the elements alone when it fails, and otherwise returns elements equal to those of exact arithmetic to a few units in the last place (the radial velocity relative to distance times speed, the energy relative to the sum of the kinetic and potential parts). palUe2pv at the date of the elements then returns status 0, the elements unchanged, the position bit for bit and the velocity to 2.3e-16 of itself, whatever the orbit; and the loop of palUe2pv that halves the angle ends within 501 passes from any finite start.", "quantifier": "all positions and velocities up to a million astronomical and canonical units, all masses up to a million, all dates, all roundings to nearest", "why_tests_cant": "equality bit for bit and freedom from endless loops must hold for every orbit and every value of the angle", "anchors": ["palPv2ue.c:palPv2ue", "palUe2pv.c:palUe2pv"]}
{"id": "C144", "title": "Axial vector of a rotation matrix in double precision", "statement": "In double precision palDm2av, given a matrix whose entries are within d (up to 1e-9) of those of the rotation by a vector W, returns W to 79 d + 3e-14 radians for rotations of up to 3 radians and to 17 d + 9e-15 up to a quarter of a turn, however small the rotation; so it undoes palDav2m to 7.4e-13 and 1.4e-13 radians. A matrix that is exactly symmetric gives exactly the null vector.", "quantifier": "all rotation vectors of length up to 3 radians, all matrices near the rotation, all roundings to nearest and all libraries of the stated accuracy", "why_tests_cant": "the quotient of the angle by the modulus of the differences is 0/0 at the unit matrix and nearly so around it, down to numbers whose squares underflow", "anchors": ["palOne2One.c:palDm2av", "palOne2One.c:palDav2m"]}
{"id": "C145", "title": "palAtmdsp in double precision", "statement": "In double precision palAtmdsp never divides by zero (its test dn1 != a1 suffices, because the difference of two distinct doubles does not round to zero); it returns the given constants bit for bit for radio wavelengths, for the same wavelength and in a vacuum; and otherwise A is that of exact arithmetic to 4 parts in 10^14 and B to 1e-12 + 1e-8((n1-1)+(n2-1)) of the scaled constant unless the given A is within a thousandth of n1-1.", "quantifier": "all temperatures, pressures from 1e-6 mb, humidities with a vapour pressure of at most 3.4 times the pressure (accuracy only), wavelengths, doubles A and B, every round-to-nearest arithmetic and pow with relative error 2.3e-16", "why_tests_cant": "rounding errors of a formula with a cancellation (n1-1-A) and an equality test on doubles: no sample of inputs shows that the denominator never rounds to zero", "anchors": ["palAtmdsp.c:palAtmdsp"]}
{"id": "C146", "title": "palDmoon in double precision", "statement": "For every date within thirty centuries of 1900, the Moon computed in double precision by palDmoon differs from that of exact arithmetic by at most 1e-12 AU (15 cm) in each component of the position and by at most 5e-18 AU/s in each component of the velocity, although its arguments run to tens of millions of degrees and are reduced with fmod, which may wrap in one arithmetic and not in the other; so the distance is always between 0.002376 and 0.002798 AU.", "quantifier": "all TDB dates within 1095750 days of 1900 Jan 0.5, every round-to-nearest arithmetic and sin/cos with relative error 2.3e-16", "why_tests_cant": "rounding errors of three series of 50, 45 and 31 terms with powers of the time, and a discontinuous reduction: no sample of dates shows a bound for every date", "anchors": ["palDmoon.c:palDmoon"]}
{"id": "C147", "title": "palDtps2c in double precision", "statement": "With D = cos^2(dec)(1+eta^2) - sin^2(dec) xi^2, palDtps2c in double precision reports no solution (and writes none) if D < -3e-15 and solutions if D > 3e-15, one or two of them useful according to |sin dec| sqrt(1+xi^2+eta^2) < 1 unless that is within 2e-15 of 1; and for D >= 1e-10 both tangent points are within 5e-14/D in right ascension and 5e-14/sqrt(D) in declination of exact tangent points that project the star to the given coordinates.", "quantifier": "all tangent-plane coordinates up to 1 (45 degrees), all stars with |ra| <= 7, both signs of zero, every round-to-nearest arithmetic and sin/cos/atan2 with absolute errors 2.3e-16 and 4.5e-16", "why_tests_cant": "the condition number is unbounded near the limit of solvability, and the number of solutions is decided by signs of rounded differences; a sample says nothing about the points next to the limit", "anchors": ["palDtps2c.c:palDtps2c"]}
{"id": "C148", "title": "palDcmpf in double precision", "statement": "Decomposing a plate model in double precision, palDcmpf gives the two scales (with the sign of the x scale, which depends on the sign of a rounded determinant) to 5.3e-16 of their size, the nonperpendicularity to 2.1e-15 radians without a spurious turn, the orientation to 6.5e-15 radians up to a whole turn, and the zero points to 1.1e-13/kappa^2 of the constant terms divided by the scale, kappa being the cosine of the nonperpendicularity.", "quantifier": "all models with coefficients up to 1e10, scales of at least 1e-10 and kappa at least 1e-6, both signs of zeros, every round-to-nearest arithmetic and sin/cos/atan2 with the errors of LibmOK", "why_tests_cant": "the sign test, the reduction of the angle and the division by a cancelling determinant must be right for every model, including those next to degeneracy", "anchors": ["palDcmpf.c:palDcmpf"]}
{"id": "C149", "title": "palRdplan in double precision", "statement": "In double precision palRdplan gives the apparent topocentric place of the Moon to 1.6e-9 radians of that of exact arithmetic and its diameter to 6e-11, the Sun to 3e-13 and 1e-14, and a planet to (1.5e-13 B + 3e-13)/D and (5e-15 B + 1e-14)/D when it is B AU from the Sun and D from the observer; the right ascension is from 0 to less than 2 pi and a number outside 0..8 gives exactly the result for the Sun.", "quantifier": "all TDB dates from 1727 to 2273, all latitudes, longitudes up to 10 radians, all bodies, every round-to-nearest arithmetic, sin/cos/atan2/asin with stated errors, every nutation series within 1e-3 radians (returned with an error of up to 1e-14) and every planetary ephemeris with planets within 50 AU of the Sun", "why_tests_cant": "sidereal time, nutation, precession, lunar theory, observer and light time are chained: the error of each step must be bounded for every date and place, not sampled", "anchors": ["palRdplan.c:palRdplan", "palPlanet.c:palPlanet"]}
{"id": "C150", "title": "palEqeqx in double precision", "statement": "In double precision palEqeqx returns the equation of the equinoxes of exact arithmetic to 2.1e-13 radians, hence the nutation in longitude projected on the equator plus the complementary terms to 3.0001 milliarcseconds, and never more than 18.41 arcseconds: the large Earth rotation angle cancels and no whole turn is gained or lost.", "quantifier": "all TDB dates from 1900 to 2100, every round-to-nearest arithmetic, sin/cos/atan2 with stated errors, every nutation series with components up to 20 and 11 arcseconds returned with an error of up to 1e-14 radians, every sum of the series of the CIO locator returned with an error of up to 1e-9 arcseconds", "why_tests_cant": "the result is a difference of two angles each reduced to 0..2 pi: a turn could be gained at any date where one of them wraps, and rounding errors of the precession matrix are amplified differently at each date", "anchors": ["palOne2One.c:palEqeqx"]}
{"id": "C151", "title": "The model atmosphere of the refraction integral in double precision", "statement": "In double precision the refractive index of the stratosphere is that of the exponential atmosphere to 1.3e-16 and never less than 1, and r dn/dr is right to 2.6e-14; in the troposphere the temperature (held between 100 and 320 K) is right to 1.3e-13 K, the refractive index to 1.7e-15 and r dn/dr to 2.7e-13.", "quantifier": "all heights up to 80 km above the tropopause and 20 km above the observer, all temperatures from 100 to 500 K, lapse rates up to 0.01 K/m, exponents from 1 to 33, all constants of the sizes palRefro makes, every round-to-nearest arithmetic, pow and exp with a relative error of 2.3e-16", "why_tests_cant": "pow and exp amplify the error of their arguments by an amount that depends on the height and the exponents; tests see a few heights", "anchors": ["pal1Atms.c:pal1Atms", "pal1Atmt.c:pal1Atmt"]}
{"id": "C152", "title": "palRefco in double precision", "statement": "In double precision palRefco samples the refraction at the zenith distances whose tangents are 1 and 4, to 1.2e-15 radians, and the constants A and B it returns reproduce whatever refractions (up to M) palRefro returned there: A + B to 4e-16 M and 4 A + 64 B to 3.2e-15 M.", "quantifier": "every refraction function with values up to 0.1 radian, every round-to-nearest arithmetic", "why_tests_cant": "the 2 by 2 system is solved with cancellation (64 r1 - r2, r2 - 4 r1), so the error must be bounded for every pair of refractions", "anchors": ["palRefco.c:palRefco"]}
{"id": "C153", "title": "Sexagesimal text to radians in double precision", "statement": "In double precision palDafin accepts text with whole degrees (up to 1e9, of either sign, minus zero included), whole arcminutes below 60 and arcseconds up to 59.999999999999, and the angle is right to 5.5e-16 of itself. Arcseconds written within 3.5e-15 of sixty, although below 60, are rejected with status -3, because the conversion of the text rounds them to 60.", "quantifier": "every sign, degrees up to 1e9, minutes below 60, real number of seconds, every round-to-nearest arithmetic", "why_tests_cant": "the accumulated rounding (and the exactness of the integer part) depends on every field; the rejection just below sixty needs a boundary analysis of the rounding", "anchors": ["palDafin.c:palDafin", "palDfltin.c:palDfltin"]}
{"id": "C154", "title": "Calendar dates and TAI-UTC in double precision", "statement": "For every Modified Julian Date that is a double number of at least one in size and in the accepted range, palDjcl in double precision succeeds without any rounding error: the date is valid, the fraction is in [0,1) and palCldj of the date plus the fraction is exactly the given MJD. For every calendar date from year -4799 on, palDjcl of palCldj gives back exactly that date. palDjcal to at most nine decimals is right to half a unit and a millionth more, with a fraction field from 0 to 10^ndp. palDat is TAI-UTC as published to 5e-15 s, exactly from 1972 on, and palDtt is TT-UTC to 1.8e-14 s.", "quantifier": "every double MJD of at least one in size from -2468569 to 997599999, every round-to-nearest arithmetic, every pow right to 2.3e-16", "why_tests_cant": "the compensated summation and the roundings to whole numbers must be exact for every double, in particular next to midnight where one wrong rounding changes the day", "anchors": ["palOne2One.c:palDjcl", "palDjcal.c:palDjcal", "palDat.c:palDat", "palDtt.c:palDtt", "palmac.h:DNINT"]}
{"id": "C155", "title": "Station coordinates in double precision", "statement": "A coordinate written in the station table of palObs as whole degrees, whole minutes below 60 and seconds is in double precision the angle of the exact table to 5.5e-16 of itself, west and north as well as east and south, and the latter are bit for bit the negatives of the former.", "quantifier": "every whole number of degrees up to 1e9 and of minutes below 60, every number of seconds up to 59.999999999999, every round-to-nearest arithmetic", "why_tests_cant": "the unparenthesised macros multiply in a different order for the two signs, and every operation rounds", "anchors": ["palObs.c:WEST", "palObs.c:EAST", "palObs.c:NORTH", "palObs.c:SOUTH"]}
