# Design of the formal model of Starlink/pal

## Trusted base

* Lean 4.33.0's kernel; the axioms `propext`, `Classical.choice`, `Quot.sound` (all property theorems are
  checked with `#print axioms`; no other axiom is used).  Mathlib supplies the reals, trigonometric functions,
  `Complex.arg`, matrices and determinants.
* The reading of the C source: the code is not executed here.  Each definition in `lean/Verif/Model/*.lean` cites the
  file and lines in /repo it models.
* `double` is modelled by the real numbers ℝ (or an arbitrary ordered field where only +,-,*,/ and
  comparisons are used).  Rounding, overflow, NaN and infinities are not modelled; theorems are about the exact
  algorithm.  Signed zeros are modelled only in `palDfltin`.  The constants
  `PAL__DPI`, `PAL__DD2R`, ... in palmac.h are modelled as the exact multiples of π they approximate.  All other decimal
  constants are modelled as the exact rational written in the source.
* Exception: the modules whose names begin with `Fl` (`Model/Flt`, `Model/FlSexa`, ...) model double precision: every operation is followed by a rounding `fl`, about which only the structure
  `Rounding` is assumed (relative error 2^-53 or absolute 2^-1075, monotone, odd, exact on binary64 numbers; no overflow below 2^1000).  `ieee_rounding` proves that IEEE 754 binary64 rounding to nearest even
  satisfies it.  `sin`, `cos` and `atan2` of the C library are parameters with errors of at most 2.3e-16, 2.3e-16 and 4.5e-16 (`LibmOK`), `sqrt` is correctly rounded, `pow` (palUnpcd) is a parameter with a relative error of at most 2.3e-16 (`PowOK`).  Extended-precision intermediates and fused multiply-add are not modelled.
* Division by zero: Lean's total `x/0 = 0` is not relied upon; where the C code can divide by zero the model either
  returns a distinct outcome or the theorem carries the guard explicitly.
* `atan2(y,x)` is `Complex.arg (x + iy)` (so `atan2(0,0)=0`, as IEEE for +0).
* `fmod(x,y)` is `x - y*trunc(x/y)`.
* The C library `strtol`/`strtod`/`isspace`/`strncpy`/`strcasecmp` in the C locale are modelled from the C standard.
* ERFA is not in /repo; PAL calls it.  What it calls is modelled from ERFA's published definitions, each cited by its call site in /repo: vector, matrix, angle and calendar
  helpers (`eraS2c`, `eraC2s`, `eraRxp`, `eraAnp`, `eraCal2jd`, ... in `Verif/Model/Erfa.lean`, `Vec`, `Sphere`, `Calendar`), sexagesimal conversion (`eraD2tf`, `eraTf2d`, ... in `Model/Sexa`),
  sidereal time (`eraGmst06`, `eraEra00` in `Model/Gmst`; `eraEe06a`, `eraGst06a`, `eraEors` in `Model/Eqeqx`), the FK5/Hipparcos rotations (`eraFk5hz`, `eraHfk5z` in `Model/Hip`), quick refraction constants (`eraRefco` in `Model/Refcoq`),
  space motion (`eraStarpm`, `eraStarpv`, `eraPvstar` in `Model/Pm`) and the IAU 2006 precession and obliquity (`eraPfw06`, `eraFw2m`, `eraPmat06`, `eraObl06`, `eraP06e`, `eraPnm06a` in `Model/Prec06`).
  Where possible these were compared, outside Lean, with the expected values in /repo/palTest.c.
  The remaining theories (`eraEpv00`, `eraNut06a`, `eraPlan94`, the periodic terms of `eraS06`, `eraEe06a` where palAoppa calls it, and `eraDat` outside Model/Dat.lean, where its table is modelled) are parameters of the model, with any assumed behaviour as an explicit hypothesis of the theorem that uses it;
  most theorems also keep precession as a parameter (`Theory`), of which `iau2006` is an instance.
* Not modelled: aliasing of arguments and memory layout of the `double[]` argument blocks, which are records, except for the functions of Model/Memory.lean (C114), Model/Blocks.lean (C117) and Model/DmatMem.lean (C121: memory safety of palDmat; an access outside the arrays is the outcome `none`), the test program,
  functions that pal.h declares but /repo does not implement (such as palFk425).
* Undefined behaviour (reading before/after a string, zero-length buffers, uninitialised reads) is a distinct outcome (`none` / `Outcome.ub`).

## Layout

* `Verif/Model/*`  – definitions modelling the C functions.
* `Verif/Spec/*`   – small independent specifications used by theorem statements.
* `Verif/Lemmas/*` – helper lemmas.
* `Verif/Props/*`  – the property theorems, each followed by an `example` showing its hypotheses are met by a concrete case.

## Where the code disagrees with its documentation (negations are proved)

For each of these the negation of the documented (or expected) behaviour is a theorem, named in MANIFEST.json; a `_partial` theorem or a further theorem says what does hold.

* palIntin: a value that fits `long` but not `int` wraps round silently (C03); palDfltin copies the field into a 256-byte buffer, and longer fields give wrong results (C06).
* palDjcal does not carry when the rounded fraction reaches one (C15); palDd2tf and relatives can show 24 hours and the `ihmsf` ints overflow for large intervals or many places (C89);
  palDaf2r's header announces status 2 for arcseconds out of range but 3 is returned (C90).
* palFitxy and palInvf/palDmat use an absolute threshold 1e-20 for singularity, so well-conditioned problems in small units fail (C22, C23, C71, C72).
* palDtps2c: at the pole solutions reported as useful are not (C33, C73); palPolmo divides by zero at the pole (C38).
* palPrec multiplies the two matrices in the wrong order when neither epoch is 2000, and returns the frame bias for 2000 to 2000 (C42; with the actual IAU 2006 angles, C97).
* palMapqk uses the unnormalised vector in the aberration term, palMapqkz the normalised one (C45); palEvp with deqx <= 0 refers to J2000/ICRS rather than the equinox of date (C77);
  palGeoc and palPvobs use different astronomical units (C78).
* palRefro's clamps do not prevent division by zero (C80); its atmosphere is not physical above 320 K (C53); palRefz/palRefv are consistent to a weaker figure than documented (C54);
  palRefcoq divides by zero where water boils (C95); palAop/palOap are not inverse to a microarcsecond near the horizon (C81).
* Orbits: palPlantu reads an uninitialised vector after a failed propagation (C66); palPertue's loop never treats the Moon, its close-encounter limit is 1e-4 not 0.001, statuses 3 and 10 cannot occur
  (C64); palPertel's -4 cannot occur (C65); palPv2el near the parabola returns elements that do not describe the state (C62); palEl2ue accepts what its header excludes for slow planets (C58).
* palObs compares the whole identifier, although its header says up to the first space and abbreviations (C70); an empty output buffer is overrun by its terminator (C10).
* palHfk5z returns zero proper motion at a pole (C94); palPm ignores the motion of a star with tiny parallax or apparent speed above c/2, and leaves its result unset for a star that reaches the
  observer (C96); palDmoon's velocity ignores the rotation of the frame of date (C87).

## Plan per property

* **C01** palIntin decodes any in-range decimal integer field — executable model of palIntin over `List Char` (strtol of the C standard, 64-bit long, 32-bit int truncation); theorem by induction over the digit string.
* **C02** palIntin walks a delimited list — iterate the model over a rendered field list; induction over the list.
* **C03** palIntin reports values outside the result range — false of the code (`int retval = strtol`): negation with witnesses; partial: |value| < 2^31, or beyond the range of long.
* **C04** palIntin never leaves the string and always advances — structural lemma about span/dropWhile; UB start positions are `none`.
* **C05** palDfltin decodes any decimal floating field — executable model of palDfltin with exact rational strtod; round trip from a rendering specification.
* **C06** palDfltin handles fields anywhere, however long the string — false beyond 255 characters (fixed buffer): negation with a witness family; partial under the buffer limit.
* **C07** palDafin status and value — model over an arbitrary ordered field with the three field outcomes; complete decision table.
* **C08** palObs by number and by name agree — executable model over an arbitrary table, instantiated with the table transcribed from the source.
* **C09** palObs failure leaves outputs alone — same model.
* **C10** String outputs respect their buffers — byte-buffer model of strncpy+terminator; length 0 is UB.
* **C11** palObs table entries are valid geographic positions — finite table: decided over all rows, lifted.
* **C12** Calendar to MJD is the day count of the Gregorian calendar — integer model of eraCal2jd (C truncating division); compared to a day-count specification by next-day steps.
* **C13** MJD to calendar inverts calendar to MJD — integer model of eraJd2cal; round trip.
* **C14** palCaldj century default — case split.
* **C15** palDjcal delivers a calendar date rounded to the requested precision — false (no carry): negation with witness; partial when rounding does not carry.
* **C16** Epoch conversions are mutually inverse and increasing — affine maps over ℝ.
* **C17** palDt follows its three models, continuously, with minimum at 1819 — piecewise quadratic; nlinarith.
* **C18** palDat and palDtt — wrapper model with eraDat parameter.
* **C19** palDmat inverts and solves — Gauss–Jordan over any ordered field and any n with an invariant relating the partially eliminated matrix to A.
* **C20** palDmat rejects singular matrices — same invariant.
* **C21** palFitxy six-coefficient fit is least squares — normal equations over lists; completing the square.
* **C22** palFitxy four-coefficient fit is least squares — normal equations for both handednesses.
* **C23** palFitxy reports bad input and leaves coefficients unchanged — statuses; the np=2 coincident case is false of the code: negation with witness.
* **C24** palInvf inverts a plate model — field arithmetic.
* **C25** palPxy predictions and residuals — list sums.
* **C26** palDcmpf decomposition reproduces the model — trigonometry over ℝ.
* **C27** palDrange and palDranrm normalise angles — fmod model.
* **C28** palDe2h and palDh2e are mutual inverses — vector form of the conversion, atan2 lemmas.
* **C29** palAltaz agrees with palDe2h and its rates are the derivatives — HasDerivAt over ℝ.
* **C30** Spherical and Cartesian conversions invert each other — atan2 lemmas.
* **C31** Angular separation is a metric-like function — atan2 of cross and dot.
* **C32** Tangent-plane projection and deprojection are inverse — real algebra.
* **C33** palDtps2c solutions are genuine — real algebra.
* **C34** palDeuler is the ordered product of axis rotations — fold of rotation matrices; membership in SO(3).
* **C35** Ecliptic conversions are inverse — orthogonal matrices.
* **C36** Galactic and supergalactic conversions invert each other to rounding of the published matrix — matrix literal arithmetic; interval arithmetic on the defining angles.
* **C37** Pincushion distortion removal inverts its application — Cardano; sign analysis.
* **C38** palPolmo without polar motion is the identity — real algebra.
* **C39** E-terms of aberration add and remove — vector algebra.
* **C40** Radial velocity components are projections of a fixed velocity — dot products, Cauchy–Schwarz; interval arithmetic for the precessed apex.
* **C41** palAirmas is even, monotonic and capped — polynomial analysis.
* **C42** palPrec maps mean place of the first epoch to the second — false of the code when neither epoch is 2000: negation with explicit rotations; partial otherwise.
* **C43** palPrebn and palPrenut, palNut give rotations — products of rotations; quaternions for the ecliptic turn.
* **C44** palPreces system selection — string prefix test.
* **C45** palMapqk and palMapqkz agree for stars without motion — false (unnormalised vector in the aberration term): negation with witness; partial for gr2e = 0.
* **C46** palMap and palAmp are the composition of their quick forms — composition and inverse.
* **C47** palEvp velocities and frame selection — orthogonal matrices.
* **C48** palPvobs observer moves on a circle — vector algebra.
* **C49** palFk54z agrees with palFk524 — composition.
* **C50** palRefco fits the rigorous refraction at two zenith distances — 2x2 linear system.
* **C51** palRefro clamps and symmetries — clamp model.
* **C52** palRefro terminates with bounded work — fuel-free loop with strip doubling measure.
* **C53** Atmosphere models are physical — real analysis; HasDerivAt for the equation of hydrostatic equilibrium and for the bending of the ray (Props/Hydro.lean).
* **C54** palRefz and palRefv refract towards the zenith and are consistent — real analysis.
* **C55** palAtmdsp scales dispersion — field arithmetic.
* **C56** Observed places: palAopqk and palOapqk — the aberrated direction is decomposed on the horizon axes, both routines are shown to move along one vertical circle; the iteration by induction on its count.
* **C57** palAoppa, palAoppat, palAop and palOap — composition; sidereal time modulo a turn; Taylor bounds for the polar motion.
* **C58** palEl2ue validation — decision logic.
* **C59** palUe2pv terminates, and fails without side effects — bounded loop model.
* **C60** palUe2pv conserves energy and angular momentum — algebraic identities of the f, g series.
* **C61** palPv2ue then palUe2pv at the same date returns the state — composition of models.
* **C62** palPv2el delivers elements of the right form — decision logic; false near the parabola: negation with witness, partial elsewhere.
* **C63** palPertue propagates to the requested date — loop with measure; parameters for planets.
* **C64** palPertue accounts for the Moon of near-Earth objects — false (loop stops at body 9): negation; partial.
* **C65** palPertel status mapping — decision logic.
* **C66** palPlantu uses only defined data — false: uninitialised read is reachable: negation with witness; partial when propagation succeeds.
* **C67** palPlanet units and status — wrapper.
* **C68** palRdplan body selection — wrapper.
* **C69** palDfltin never leaves the string and always advances — same executable model as C05.
* **C70** palObs matches up to the first space and accepts abbreviations — documented behaviour is false of the code (strcasecmp on the whole string): negation.
* **C71** palDmat accepts every non-singular matrix — documented claim is false (absolute threshold): negation; partial for a small enough threshold.
* **C72** palFitxy succeeds for every non-degenerate set of samples — false (absolute threshold of palDmat): negation; partial for a small enough threshold.
* **C73** palDtps2c solutions are useful — false of the code: negation with witness; partial when the star is not within the polar cap.
* **C74** Rotation vectors and matrices correspond — real algebra; cofactor relations of SO(3).
* **C75** Bearings are polar coordinates about the first point — real algebra, atan2.
* **C76** palGe50 adds the E-terms to the rotated galactic direction — vector algebra, interval arithmetic on the matrix.
* **C77** palEvp with no epoch refers to the equinox of date — false of the code: negation with a witness theory.
* **C78** Observatory positions lie on the WGS84 ellipsoid — real algebra of the ellipsoid.
* **C79** palMapqk space motion — HasDerivAt over ℝ.
* **C80** palRefro's limits keep it from dividing by zero — false of the code: negations with witnesses; partial under a physical hypothesis.
* **C81** palAop and palOap are self-consistent to a microarcsecond — round trip bounded by refraction mismatch and square of the diurnal aberration; mismatch by Newton convergence (C54) up to 75 degrees, zero where palRefro is frozen; in between it depends on the numerical integration and is left as the residual.
* **C82** Elements, plane and size of the orbit — the universal functions satisfy S0 = 1 + a S2 and S1^2 = S2(1+S0) up to a bounded truncation error; the cross product is bilinear.
* **C83** Elements at perihelion — at the reference epoch the iteration stops at psi = 0 at once.
* **C84** palPlanel agrees with palEl2ue — composition with the round trip of C61.
* **C85** palUe2el agrees with palPv2el — composition.
* **C86** palPv2el elements describe the state — decomposition of position and velocity on the orbit plane; conic relations; half-angle formulae.
* **C87** palDmoon velocity is the derivative of its position — model all of palDmoon (tables generated from the C); remove fmod by periodicity; induction over the series for value and derivative; the specification writes the published series out.
* **C88** palDmoon stays on the Moon's orbit — sum of absolute coefficients bounds the series; interval bounds for the parallax, latitude, obliquity and rates.
* **C89** Sexagesimal fields show the rounded value — integer division of the rounded count of last places; uniqueness of the fields.
* **C90** Sexagesimal round trip and status — composition with C89 and uniqueness; case distinction on the ranges.
* **C91** palAoppa's sidereal time — model the whole series (tables generated from the C); periodicity removes fmod; sums of absolute coefficients computed by the kernel; the four leading terms compared with the textbook formula.
* **C92** palAoppat can replace palAoppa for a while — ContDiff of the unreduced series; Lipschitz bound by kernel-computed sum of amplitude times rate.
* **C93** Greenwich mean sidereal time — model eraGmst06 and eraEra00 from their published definition; eraAnp and fmod only add whole turns; polynomial comparison over two centuries.
* **C94** FK5 and Hipparcos frames — model eraFk5hz and eraHfk5z from their published definition; Rodrigues formula for angles of both signs, derivative of the rotation, second-order bound.
* **C95** palRefcoq quick refraction constants — model eraRefco from its published definition with division by zero as a distinct outcome; algebra and monotonicity.
* **C96** palPm follows a star in straight uniform motion — model eraStarpm, eraStarpv (with its iteration) and eraPvstar from their published definition; invariants and contraction of the iteration; uniqueness of the time of emission; derivative by the inverse function theorem.
* **C97** Precession with the IAU 2006 angles — model eraPfw06, eraFw2m, eraPmat06, eraObl06, eraP06e and eraPnm06a from their published definition (nutation a parameter); operator-norm calculus of small rotations and commutators; kernel-checked Taylor evaluation of the matrices at 1900, 2000 and 2100.
* **C98** Sexagesimal conversions in double precision — model the conversions with every operation followed by an abstract rounding to nearest (concrete IEEE 754 binary64 rounding as instance); exactness of integer arithmetic and of floors of rounded quotients, relative error propagation.
* **C99** Angles normalised in double precision — model fmod exactly and the other operations rounded; exactness of the subtraction of 2 pi (numbers of the same exponent), stored constants identified by best approximation; concrete binary32 rounding for the single-precision function.
* **C100** Epochs in double precision — model with every operation rounded; absolute error propagation; monotonicity of rounding.
* **C101** Galactic and supergalactic coordinates in double precision — model with every operation rounded and the C library functions as parameters of bounded error; error propagation to the Cartesian vector, then chord lengths between directions.
* **C102** Horizon coordinates in double precision — as C101, for the horizon vector.
* **C103** Separations in double precision — as C101; Lipschitz bound for the argument in the upper half-plane; exact symmetry from the oddness of rounding.
* **C104** Vectors in double precision — relative error propagation with the underflow threshold; a concrete vector whose square underflows.
* **C105** TAI-UTC from the leap-second table — ERFA's table and its backward search by month; a month is reached iff the day number of its first day is (induction over months); case analysis over the 42 entries against a specification in MJD.
* **C106** Equation of the equinoxes — exact half-angle form of the equation of the origins of a Fukushima-Williams matrix; third-order expansions with remainder bounds; cancellation of the published polynomials by interval bounds on their combined coefficients.
* **C107** Rotation matrices and products in double precision — error propagation through the sums of products; one rotation about an axis of a matrix near a rotation adds 1.8e-15 in operator norm, by induction over the order string.
* **C108** palMapqkz applies relativistic annual aberration — vector algebra (velocity addition).
* **C109** palMapqkz light deflection — vector algebra, half-angle formulas; interval arithmetic at the limb.
* **C110** Order of the effects and contents of the parameter block — norm estimates; unfolding.
* **C111** palUe2pv follows two-body motion — Newton's equation as HasDerivAt; Stumpff-type universal functions and their derivatives give a motion, Picard-Lindelof type uniqueness; error bounds for the truncated series and the undone angle-halving (induction); the exit tests of the iteration bound the residual of Kepler's equation, the intermediate value theorem turns it into a time.
* **C112** palPlanel follows Kepler's laws — ellipse: residual bound of C111 in terms of the eccentric anomaly, monotone comparison of Kepler's equation (le_by_mono) to move to the exact mean anomaly; parabola: Cardano's root is the exact solution, so that the first pass ends; hyperbola: one-sided relative errors of the universal functions by induction over the doublings, an interval about perihelion that Newton and secant steps do not leave, and monotone comparison (Lemmas/Hyperbola.lean); counterexample far from perihelion: the three passes of the iteration of the counterexample, with bounds for the doubled universal functions and sinh.
* **C113** Elements fitted by palPv2el and given to palPlanel predict the motion — motion by Kepler's equation on each conic has the derivatives of Newton's equation (inverse function theorem, Lemmas/ConicMotion.lean) and is the only such motion (uniqueness of C111); C86 says where on the conic the state is, C112 where palPlanel goes, modulo turns.
* **C114** Output arrays may overlap input arrays — a second, statement-by-statement model on a memory of doubles (Model/Memory.lean: loads and stores in the order of the C code); equality with the functional model for all addresses; induction over the samples for palPxy.
* **C115** The parallactic angle — equality of arc tangents; the conversion by an identity between the components of the second point along the local axes of the two systems.
* **C116** Bearings in double precision — absolute error bounds of the components by the rounding calculus of C101-C104, turned into an angle by comparing chord and arc.
* **C117** Layout of the parameter blocks and element arrays — the functions once more on the memory of C114 (Model/Blocks.lean), with the element numbers of the C code; the layouts of the documentation as functions from a memory to the records of the other modules (amprmsAt, aoprmsAt, univAt), and equality of the two models for all addresses.
* **C118** Apparent size of the Moon and the Sun — C68 with the model of palDmoon and the distance of C88, the triangle inequality, and the WGS84 ellipsoid for the distance of the observer; bounds of the sine.
* **C119** Tangent-plane projection in double precision — rounding calculus of C116 for the three components of the star in the frame of the tangent point; the quotients carry the relative error of the cosine, which cancels in the direction.
* **C120** Speed and parallax of the Moon — sums of the absolute values of the differentiated series bound the spherical velocity components; the parallax from the size of the Earth, the distance of C88 and the light-time shift with the speed bound.
* **C121** palDmat uses only its arrays — statement-level model with running pointers on a memory where any access outside the arrays fails; loop invariants for each loop (contents = partly transformed matrix) give refinement of the functional model of C19.
* **C122** Radial distortion in double precision — relative-error calculus for the positive intermediate quantities of the cubic (FlRel), absolute errors where the two cube roots cancel; the trigonometric branch by the conditioning of the angle; round trip from strong monotonicity of the distortion.
* **C123** Mean to apparent place and back in double precision — absolute errors step by step; near the Sun the error of the factor, of order 1/D^2 for the denominator D, meets a vector of length at most sqrt(2D), and D is at least 1e-5; the final direction as in C101.
* **C124** Air mass, velocity corrections and delta-T in double precision — explicit error bounds step by step; across a rounded limit (87 degrees, the breaks of palDt) minimum and polynomials are continuous.
* **C125** Refraction in double precision — explicit error bounds step by step, relative for the squares in denominators; at the hand-over angle the second model agrees with the first, so either branch is within the bound.
* **C126** Observatory position in double precision — explicit error bounds step by step; the reciprocal of the flattened radius by relative errors (the radicand stays near one).
* **C127** Plate models in double precision — error bounds relative to the magnitudes of the terms, with an absolute term for underflow; the determinant relative to itself by its condition; the missed inverses are explicit doubles, rounded with the property that the nearest double is delivered.
* **C128** RMS residuals in double precision for any number of samples — induction over the samples for the accumulated relative error of the sum of squares; Minkowski inequality for the errors of the residuals; square root halves the relative error.
* **C129** Sidereal time in double precision — explicit error bounds step by step, the reduction to one turn by C99, congruence with the closed formula by C93; for whole dates the Julian Date is exactly representable, for others its rounding is carried through the slope of the formula.
* **C130** Apparent to observed place in double precision — directions compared as vectors; the errors of azimuth and zenith distance separated so that the azimuth is not needed at the zenith; both Newton steps of palRefz carried with an input error; the branch taken is decided from the zenith distance; palRefro is a parameter.
* **C131** Observed to apparent place in double precision — as C130, with the refraction written with the tangent of the observed zenith distance.
* **C132** Parameters for observed places in double precision — operation-by-operation rounding model of pal__Gmst, pal__Geoc, the polar motion correction and palAoppa; forward error analysis; palAop by composition with C130. pal__Eqeqx and palRefco are parameters.
* **C133** Round trip between apparent and observed places in double precision — the rounding analyses of C130/C131 redone against exact arithmetic with the exact sine and cosine of the latitude (the parameter array holds rounded ones), for observed vectors off by up to 3.5e-13; distances carried through the isometries; combined with C81 (exact arithmetic) by the triangle inequality.
* **C134** palAop and palOap undo each other in double precision — composition of C132 (the parameters) with C133 (the quick routines); the speed of a terrestrial observer is bounded from the figure of the Earth.
* **C135** E-terms and FK4 to FK5 in double precision — operation-by-operation rounding model of the four functions; forward error analysis of the vector steps, then the angle of a perturbed vector; the round trips by the triangle inequality with C39.
* **C136** FK5 to FK4 in double precision — operation-by-operation rounding model of palFk524 and palFk54z; forward error analysis of the six-vector product, the E-terms and the quotients; the angle of a perturbed vector; the shift to another epoch by the chord formula; the round trips by the triangle inequality with C49.
* **C137** Precession and ecliptic coordinates in double precision — operation-by-operation rounding model of the polynomials (Horner, error by induction on the coefficient list), of the rotations that build the matrices and of the products; operator-norm errors add up along the product; the angles of a perturbed unit vector; round trips by the triangle inequality with C42, C43 and C97.
* **C138** Nutation, the Earth ephemeris and the mean-to-apparent parameters in double precision — operation-by-operation rounding model on top of C137: the four precession angles of eraP06e and the Fukushima-Williams angles with the nutation added, operator-norm errors of products of rotations, then componentwise errors of the vectors; the numbers of eraNut06a (with an error d against the exact ones) and of eraEpv00 are parameters.
* **C139** Mean to apparent place and back, from catalogue and date, in double precision — C138 bounds the difference of the rounded and the exact parameter block; sensitivity lemmas over the reals (deflection, aberration, normalisation, rotation; both iterations of palAmpqk, by induction over the passes) carry it to the place; C123 gives the rounding of the conversion with a given block; the triangle inequality and C46 give the round trip.
* **C140** Polar motion in double precision — Model/FlPolmo.lean transcribes palPolmo with a rounding after every operation; error bounds of the turned site and pole vectors, of their normalisation (relative to the distance from the axis) and of the two components of the pole as seen from the site; the arc tangents as in C116.
* **C141** FK5 and Hipparcos places in double precision — Model/FlHip.lean transcribes eraFk5hz, eraHfk5z, eraPv2s with a rounding after every operation; error bounds of the matrix of eraRv2m for small rotation vectors by the formula of Rodrigues, then of the turned vectors and of the rates of the angles.
* **C142** Altazimuth velocities and accelerations in double precision — Model/FlAltaz.lean transcribes palAltaz with a rounding after every operation; azimuth and elevation are bit for bit those of palDe2h (C102); the rates by forward error analysis in powers of the reciprocal of the distance from the zenith; the parallactic angle as in C116.
* **C143** Universal elements in double precision — Model/FlUniv.lean transcribes palPv2ue and palUe2pv with a rounding after every operation (the loop of halvings with a bound on its passes, shown to be enough); forward error analysis relative to the sum of the absolute values for the elements; the round trip by exact evaluation, all universal functions being 1 or 0 at angle 0.
* **C144** Axial vector of a rotation matrix in double precision — Model/FlRm2v.lean transcribes eraRm2v with a rounding after every operation; the error is written as g(x-X) + (x/s)((theta-Theta) + g(S-s)), where the ratio x/s is bounded also where the squares underflow.
* **C145** palAtmdsp in double precision — Model/FlAtmdsp.lean: palAtmdsp with every operation rounded, pow a parameter satisfying PowOK, the division by zero as a distinct outcome. Props/FlAtmdsp.lean: C145_defined from IEEE best approximation, C145_radio/same/vacuum bit for bit, C145_accuracy against the exact model of C55.
* **C146** palDmoon in double precision — Model/FlMoon.lean: palDmoon with every operation rounded, fmod exact. Lemmas/FlRr.lean: a calculus of rounding errors (x is X to k roundings of size M). Lemmas/FlMoon*.lean: arguments modulo whole turns, induction over the tables, the spherical-to-cartesian step. Props/FlMoon.lean: C146_accuracy against palDmoon in exact arithmetic; C146_distance from C88.
* **C147** palDtps2c in double precision — Model/FlTps.lean: palDtps2c with every operation rounded and the signs of zeros as parameters. Props/FlTps.lean: C147_count by counting roundings (Lemmas/FlRr.lean) in the two discriminating quantities, C147_points against the exact palDtps2c up to whole turns, C147_project with C33.
* **C148** palDcmpf in double precision — Model/FlDcmpf.lean: palDcmpf with every operation rounded and the signs of zeros as parameters. Lemmas/FlDcmpf*.lean: scales, sign, angles, determinant and zero points by counting roundings with symbolic magnitudes. Props/FlDcmpf.lean: C148_accuracy against the exact palDcmpf of C26.
* **C149** palRdplan in double precision — Model/FlRdplan.lean: palRdplan with every operation rounded, on top of the double-precision models of palDmoon, palNut, palPrenut, palGmst, palDt, palEpj and palPvobs; the numbers returned by eraNut06a and eraPlan94 and the library arc sine are parameters. Lemmas/FlRdplan.lean: errors of sidereal time, observer, Moon, Earth and planets, place and diameter. Props/FlRdplan.lean: C149_moon, C149_sun, C149_planet against the exact palRdplan of C68, C149_other, and C149_deltaT (the parabola used for sidereal time is palDt).
* **C150** palEqeqx in double precision — Model/FlEqeqx.lean: eraS06, eraEors, eraGst06, eraEe06a and palEqeqx with every operation rounded. Lemmas/FlEqeqx.lean: size of the precession-nutation matrix, error of the equation of the origins, of the reduction to +-pi. Props/FlEqeqx.lean: C150_model against the exact palEqeqx of C106, C150_value against the definition of the equation of the equinoxes.
* **C151** The model atmosphere of the refraction integral in double precision — Model/FlAtm.lean: pal1Atms and pal1Atmt with every operation rounded, pow and exp parameters. Lemmas/FlAtm.lean: rounded quotient, Lipschitz bound of powers, exponential of a computed number. Props/FlAtm.lean: C151_stratosphere and C151_troposphere against the formulas of the model atmosphere.
* **C152** palRefco in double precision — Model/FlRefco.lean: palRefco with every operation rounded, the numbers returned by palRefro being a parameter. Props/FlRefco.lean: C152_points, C152_fit.
* **C153** Sexagesimal text to radians in double precision — Model/FlDafin.lean: palDafin after the fields are found, with the rounding of strtod and of every operation. Props/FlDafin.lean: C153_decodes, C153_sixty.
* **C154** Calendar dates and TAI-UTC in double precision — Model/FlJd2cal.lean: eraJd2cal with its compensated summation, eraDat, palDjcl, palDjcal, palDat, palDtt, every operation rounded. Props/FlJd2cal.lean: C154_djcl, C154_roundtrip, C154_djcal, C154_dat.
* **C155** Station coordinates in double precision — Model/FlObsTable.lean: the macros WEST/NORTH and EAST/SOUTH with every operation rounded. Props/FlObsTable.lean: C155_station_angles.
