{"id": "C01", "title": "FloorDiv is the mathematical floor", "statement": "base.FloorDiv(x,y) and base.FloorDiv64(x,y) return the greatest integer q with q <= x/y for every sign combination, panic exactly when y = 0, and in 64 bit arithmetic the only wrapping case is MinInt64 / -1.", "quantifier": "for all int (int64) x and y", "why_tests_cant": "Four sign combinations times exact/inexact division over 2^128 pairs; the fix-up branch is only wrong on a measure-zero set of pairs.", "anchors": ["v3/base/math.go: FloorDiv, FloorDiv64"]}
{"id": "C02", "title": "Gregorian calendar to JD is the day count", "statement": "julian.CalendarGregorianToJD(y,m,d) equals the proleptic Gregorian day count (365 days a year, a leap day exactly in the 4/100/400 leap years, the usual month lengths) anchored so that 2000 January 1.5 is JD 2451545.", "quantifier": "for all years y (negative included), months 1..12 and real days d", "why_tests_cant": "The formula mixes five floor divisions; a wrong constant can agree on all tabulated book dates and still be off by one day in some century or month.", "anchors": ["v3/julian/julian.go: CalendarGregorianToJD"]}
{"id": "C03", "title": "Julian calendar to JD is the day count", "statement": "julian.CalendarJulianToJD(y,m,d) equals the proleptic Julian day count (leap day every fourth year) anchored at -4712 January 1.5 = JD 0, and it runs exactly 10 days ahead of the Gregorian function on 1582 October 15 / 5.", "quantifier": "for all years y, months 1..12 and real days d", "why_tests_cant": "Same: infinite family of dates; off-by-one regions are sparse.", "anchors": ["v3/julian/julian.go: CalendarJulianToJD"]}
{"id": "C04", "title": "JD to calendar inverts the Gregorian conversion", "statement": "For every Gregorian date from 1582 October 15 on, JDToCalendar(CalendarGregorianToJD(y,m,d)) = (y,m,d), and for every jd from that instant on CalendarGregorianToJD(JDToCalendar(jd)) = jd with month 1..12 and day within the month.", "quantifier": "for all valid dates with fractional day, for all real jd", "why_tests_cant": "Inverse pair over an infinite domain; floor based inversions fail at isolated days (ends of centuries, ends of months).", "anchors": ["v3/julian/julian.go: JDToCalendar, CalendarGregorianToJD"]}
{"id": "C05", "title": "JD to calendar inverts the Julian conversion up to the reform", "statement": "For every Julian calendar date from JD 0 through 1582 October 4, JDToCalendar(CalendarJulianToJD(y,m,d)) = (y,m,d).", "quantifier": "for all valid Julian dates in the interval", "why_tests_cant": "The switch-over threshold is a single constant; tests exercise a handful of dates and none in the ten day window where a wrong constant shows.", "anchors": ["v3/julian/julian.go: JDToCalendar, CalendarJulianToJD"]}
{"id": "C06", "title": "Day of week advances by one every day", "statement": "julian.DayOfWeek(jd) is in 0..6, is constant over one civil day (0h to 24h UT), advances by one modulo 7 from each day to the next and is 6 (Saturday) on 2000 January 1.", "quantifier": "for all jd from the first civil day on", "why_tests_cant": "Unbounded domain; truncation versus floor only differs outside the sampled range.", "anchors": ["v3/julian/julian.go: DayOfWeek"]}
{"id": "C07", "title": "Leap year predicates agree with year lengths", "statement": "LeapYearGregorian(y) (LeapYearJulian(y)) is true exactly when the JD of January 1 of y+1 minus the JD of January 1 of y is 366, otherwise the difference is 365; 97 of any 400 (100 of any 400) consecutive years are leap.", "quantifier": "for all years, negative included", "why_tests_cant": "Go's % truncates toward zero, negative years are where an == 0 test and other tests part ways.", "anchors": ["v3/julian/julian.go: LeapYearGregorian, LeapYearJulian, CalendarGregorianToJD, CalendarJulianToJD"]}
{"id": "C08", "title": "Day of year is the offset from January 0", "statement": "DayOfYearGregorian(y,m,d) = JD(y,m,d) - JD(y,1,0), likewise Julian; DayOfYearToCalendar is its two sided inverse on valid dates / valid day numbers.", "quantifier": "for all years and all valid month/day (day numbers 1..365 or 366)", "why_tests_cant": "Cross function agreement over all years; integer approximations of month lengths break at month ends.", "anchors": ["v3/julian/julian.go: DayOfYear, DayOfYearGregorian, DayOfYearJulian, DayOfYearToCalendar, wholeMonths"]}
{"id": "C09", "title": "Gregorian Easter is the first Sunday after the ecclesiastical full moon", "statement": "easter.Gregorian(y) is a Sunday (by CalendarGregorianToJD and DayOfWeek), lies in March 22 .. April 25, and is the first Sunday strictly after the Paschal full moon defined by the Clavius epact rules.", "quantifier": "for every year y >= 0", "why_tests_cant": "The full cycle is 5,700,000 years; exceptions of the algorithm concern a few years per millennium.", "anchors": ["v3/easter/easter.go: Gregorian"]}
{"id": "C10", "title": "Julian Easter is the first Sunday after the ecclesiastical full moon", "statement": "easter.Julian(y) is a Sunday in the Julian calendar, lies in March 22 .. April 25, and is the first Sunday strictly after the Julian Paschal full moon (19 year cycle).", "quantifier": "for every year y >= 0", "why_tests_cant": "532 year cycle and unbounded years.", "anchors": ["v3/easter/easter.go: Julian"]}
{"id": "C11", "title": "Easter cycles", "statement": "easter.Gregorian repeats with period 5,700,000 years and easter.Julian with period 532 years; neither has a shorter proper period among the maximal divisors of that period.", "quantifier": "for every year y >= 0", "why_tests_cant": "Verifying a 5.7 million year period pointwise for all y is not a finite test.", "anchors": ["v3/easter/easter.go: Gregorian, Julian"]}
{"id": "C12", "title": "Jewish calendar weekday postponements", "statement": "The Pesach date returned by jm.JewishCalendar(y) never falls on a Monday, Wednesday or Friday, the new year date returned is exactly 163 days later and never falls on a Sunday, Wednesday or Friday, whatever rounding the floating point term suffers.", "quantifier": "for every year y >= 0 (Julian calendar before 1583, Gregorian from 1583)", "why_tests_cant": "The rule must hold for all years and every rounding of the floating point intermediate.", "anchors": ["v3/jm/jm.go: JewishCalendar, bigD"]}
{"id": "C13", "title": "Jewish year lengths", "statement": "JewishCalendar(y) reports months = 13 exactly in the leap years of the 19 year cycle and days is one of 353, 354, 355 (12 months) or 383, 384, 385 (13 months), equal to the distance between successive new year dates.", "quantifier": "for every year of the calendar's use", "why_tests_cant": "A rational approximation with twelve digits must be right at every threshold.", "anchors": ["v3/jm/jm.go: JewishCalendar"]}
{"id": "C14", "title": "Moslem to Julian conversion is the tabular calendar", "statement": "MoslemToJulian(y,m,d) denotes, as a Julian calendar (year, day-of-year), the day number of the tabular Islamic calendar (30 year cycle with 11 leap years, alternating 30/29 day months, epoch 622 July 16), and day-of-year is within 1..365/366.", "quantifier": "for all Moslem years y >= 1, months 1..12, days 1..30", "why_tests_cant": "Nested floor divisions on three calendars; errors are isolated days.", "anchors": ["v3/jm/jm.go: MoslemToJulian"]}
{"id": "C15", "title": "Moslem leap years", "statement": "MoslemLeapYear(y) is true exactly when the tabular year y has 355 days; exactly 11 in every 30 consecutive years.", "quantifier": "for all y >= 1", "why_tests_cant": "Infinite domain, agreement of two independent formulas.", "anchors": ["v3/jm/jm.go: MoslemLeapYear, MoslemToJulian"]}
{"id": "C16", "title": "Julian to Moslem inverts Moslem to Julian", "statement": "Converting any Moslem date to a Julian calendar date and back with JulianToMoslem returns the original year, month and day.", "quantifier": "for all Moslem dates", "why_tests_cant": "Only the last/first days of particular years are affected by a wrong leap year test; sampled dates miss them.", "anchors": ["v3/jm/jm.go: JulianToMoslem, MoslemToJulian, MoslemLeapYear"]}
{"id": "C17", "title": "Julian/Gregorian date conversion", "statement": "jm.JulianToGregorian (from 1582 October 15 Gregorian on) and jm.GregorianToJulian preserve the day: the JD of the result in the target calendar equals the JD of the argument in the source calendar, with valid month and day.", "quantifier": "for all dates in range", "why_tests_cant": "Infinite date range, isolated boundary failures.", "anchors": ["v3/jm/jm.go: JulianToGregorian, GregorianToJulian, ymd"]}
{"id": "C18", "title": "Horner evaluates the polynomial", "statement": "base.Horner(x, c...) equals the sum of c[i]*x^i for every non-empty coefficient list and panics on the empty list.", "quantifier": "for all x and all coefficient lists of any length", "why_tests_cant": "Unbounded length and values.", "anchors": ["v3/base/math.go: Horner"]}
{"id": "C19", "title": "Lagrange interpolation", "statement": "interp.Lagrange passes through every table point, reproduces every polynomial of degree < n exactly, does not depend on the order of the rows, and base.Horner(x, interp.LagrangePoly(t)...) equals interp.Lagrange(x, t).", "quantifier": "for all tables of distinct abscissae of any length and all x", "why_tests_cant": "Unbounded table length; the in-place polynomial multiplication loop has an index invariant tests cannot cover.", "anchors": ["v3/interp/interp.go: Lagrange, LagrangePoly", "v3/base/math.go: Horner"]}
{"id": "C20", "title": "Three point interpolation is the unique quadratic", "statement": "A successfully constructed Len3 interpolates by the unique polynomial of degree <= 2 through (x1,y0), ((x1+x3)/2,y1), (x3,y2); the constructor fails exactly for len(y) != 3 or x1 = x3; InterpolateXStrict fails exactly when x is outside the closed interval between x1 and x3 whatever their order and otherwise agrees with InterpolateX.", "quantifier": "for all x1, x3, y of any length and all x", "why_tests_cant": "Universally quantified exactness and error iff conditions.", "anchors": ["v3/interp/interp.go: NewLen3, Len3.InterpolateX, Len3.InterpolateN, Len3.InterpolateXStrict, Len3.InterpolateNStrict"]}
{"id": "C21", "title": "Len3 extremum is the extremum", "statement": "Len3.Extremum succeeds exactly when the interpolating quadratic is not degenerate and its stationary point lies in the table, and then returns the stationary point, its value, and it is a global maximum or minimum of the interpolating quadratic.", "quantifier": "for all tables", "why_tests_cant": "Universal exactness plus error iff.", "anchors": ["v3/interp/interp.go: Len3.Extremum"]}
{"id": "C22", "title": "Len3 zero soundness", "statement": "When Len3.Zero (either strategy) returns without error, the returned x lies in the closed table range and the interpolating quadratic is within an explicit 1e-15-relative bound of zero there.", "quantifier": "for all tables", "why_tests_cant": "The iteration can stop for many reasons; soundness must hold for whatever table the user passes.", "anchors": ["v3/interp/interp.go: Len3.Zero, iterate"]}
{"id": "C23", "title": "A zero at the centre of the table is found", "statement": "If the tabulated function vanishes exactly at the central row, Zero returns that abscissa.", "quantifier": "for all three and five row tables whose central value is 0 and whose linear part does not vanish", "why_tests_cant": "The failing set has measure zero in random tests, yet it is the everyday case of an event falling exactly on a tabulated time.", "anchors": ["v3/interp/interp.go: Len3.Zero, Len5.Zero, iterate"]}
{"id": "C24", "title": "Five point interpolation is the unique quartic", "statement": "A successfully constructed Len5 interpolates by the unique polynomial of degree <= 4 through its five equidistant points; the constructor fails exactly for len(y) != 5 or x1 = x5.", "quantifier": "for all x1, x5, y and x", "why_tests_cant": "Universal exactness; coefficient slips in high differences are invisible on smooth test tables.", "anchors": ["v3/interp/interp.go: NewLen5, Len5.InterpolateX, Len5.InterpolateN"]}
{"id": "C25", "title": "Len5 extremum is a stationary point", "statement": "When Len5.Extremum returns without error the point it returns is (up to the iteration tolerance) a stationary point of the interpolating quartic.", "quantifier": "for all five row tables", "why_tests_cant": "Smooth tables have tiny third differences, so a wrong coefficient of n^2 stays below printed precision in the book example.", "anchors": ["v3/interp/interp.go: Len5.Extremum"]}
{"id": "C26", "title": "Len5 zero soundness", "statement": "When Len5.Zero (either strategy) returns without error the returned x is in the table range and the interpolating quartic is within an explicit 1e-15-relative bound of zero there.", "quantifier": "for all five row tables", "why_tests_cant": "As for Len3.", "anchors": ["v3/interp/interp.go: Len5.Zero, iterate"]}
{"id": "C27", "title": "Len5 strict interpolation covers x1..x5", "statement": "Len5.InterpolateXStrict accepts every x in the range x1 to x5 given to the constructor.", "quantifier": "for all tables and all x in range", "why_tests_cant": "Error-iff over a continuum.", "anchors": ["v3/interp/interp.go: Len5.InterpolateXStrict, Len5.InterpolateNStrict"]}
{"id": "C28", "title": "Half-way interpolation is cubic", "statement": "Len4Half returns the value at the centre of the unique cubic through four equidistant points, and fails exactly when len(y) != 4.", "quantifier": "for all y", "why_tests_cant": "Universal exactness.", "anchors": ["v3/interp/interp.go: Len4Half"]}
{"id": "C29", "title": "Len3ForInterpolateX selects the right rows", "statement": "For tables of at least three equidistant rows the constructor selects three consecutive rows, in range for every x (no index panic), whose centre is the row nearest to x among the interior rows, so that inside the table |n| <= 1, and interpolation at a tabulated abscissa returns the tabulated value.", "quantifier": "for all x, all table lengths, all x1 != xn in either order", "why_tests_cant": "Unbounded table length and a continuum of x; index arithmetic errors show at table ends only.", "anchors": ["v3/interp/interp.go: Len3ForInterpolateX"]}
{"id": "C30", "title": "Linear fit minimises the squared error", "statement": "fit.Linear returns the coefficients that minimise the sum of squared residuals over all lines, whenever the points do not all share one abscissa.", "quantifier": "for all point lists and all competing lines", "why_tests_cant": "Optimality is a statement over all competitors.", "anchors": ["v3/fit/fit.go: Linear"]}
{"id": "C31", "title": "Quadratic fit minimises the squared error", "statement": "fit.Quadratic returns the coefficients that minimise the sum of squared residuals over all parabolas, whenever its determinant is non zero; it recovers an exact parabola.", "quantifier": "for all point lists and all competing parabolas", "why_tests_cant": "Optimality is a statement over all competitors.", "anchors": ["v3/fit/fit.go: Quadratic"]}
{"id": "C32", "title": "Function fits minimise the squared error", "statement": "fit.Func3 and fit.Func1 return coefficients minimising the sum of squared residuals over all linear combinations of the supplied functions, whenever the determinant is non zero; Func3 with (x^2, x, 1) agrees with Quadratic.", "quantifier": "for all point lists, all functions, all competing coefficients", "why_tests_cant": "Higher-order quantification over functions.", "anchors": ["v3/fit/fit.go: Func3, Func1, Quadratic"]}
{"id": "C33", "title": "Correlation coefficient", "statement": "fit.CorrelationCoefficient lies in [-1,1], is symmetric in x and y, and equals +1 / -1 exactly for points on a rising / falling line.", "quantifier": "for all point lists with non constant x and y", "why_tests_cant": "Cauchy-Schwarz over all lists.", "anchors": ["v3/fit/fit.go: CorrelationCoefficient"]}
{"id": "C34", "title": "DecimalPlaces contract", "statement": "iterate.DecimalPlaces calls the improvement function at most maxIterations times, and when it succeeds the returned value is f(s) for the last argument s with |f(s)-s| < 10^-places; if f is a contraction with factor q < 1 the result is within q/(1-q)*10^-places of the fixed point, and it fails only if no such step occurred.", "quantifier": "for all functions, starts, places, limits", "why_tests_cant": "Higher-order quantification over user supplied functions.", "anchors": ["v3/iterate/iterate.go: DecimalPlaces"]}
{"id": "C35", "title": "BinaryRoot brackets a root", "statement": "For a continuous f with opposite signs at the bounds, iterate.BinaryRoot returns a point within (upper-lower)/2^52 of a root between the bounds.", "quantifier": "for all continuous functions and bounds", "why_tests_cant": "Loop invariant over arbitrary functions.", "anchors": ["v3/iterate/iterate.go: BinaryRoot"]}
{"id": "C36", "title": "BinaryRoot finds a root located at a bound", "statement": "If a root exists between the given bounds (the only stated requirement), bounds included, and f is continuous and monotone, the result is near it.", "quantifier": "for all monotone continuous functions with a root in [lower, upper]", "why_tests_cant": "Measure-zero set of inputs.", "anchors": ["v3/iterate/iterate.go: BinaryRoot"]}
{"id": "C37", "title": "Kepler3 accuracy", "statement": "kepler.Kepler3(e, M) returns E in [-pi, pi] within (pi/2)*2^-53 of the exact solution of E - e sin E = M (mod 2 pi).", "quantifier": "for all 0 <= e < 1 and all real M, in exact arithmetic", "why_tests_cant": "Continuum of inputs, 53 step invariant.", "anchors": ["v3/kepler/kepler.go: Kepler3"]}
{"id": "C38", "title": "Kepler1 convergence and accuracy", "statement": "kepler.Kepler1 succeeds for every 0 <= e <= 0.63 and every M and places >= 1, and whenever it succeeds with e < 1 the result satisfies |E - e sin E - M| <= e*10^-places.", "quantifier": "for all e, M, places", "why_tests_cant": "The iteration bound 5*places is a worst case statement.", "anchors": ["v3/kepler/kepler.go: Kepler1", "v3/iterate/iterate.go: DecimalPlaces"]}
{"id": "C39", "title": "Kepler2 family residual", "statement": "When kepler.Kepler2, Kepler2a or Kepler2b succeeds, the last improvement step was below 10^-places, and the iterate it improved satisfies Kepler's equation to an explicit multiple of 10^-places.", "quantifier": "for all e in [0,1), M, places", "why_tests_cant": "Convergence of Newton-like steps with clipping; chaotic for large e, so sampling is unreliable.", "anchors": ["v3/kepler/kepler.go: Kepler2, Kepler2a, Kepler2b"]}
{"id": "C40", "title": "True anomaly and radius satisfy the conic equation", "statement": "kepler.Radius(E,e,a) = a(1-e^2)/(1+e cos v) for v = kepler.True(E,e), and r cos v = a(cos E - e), r sin v = a sqrt(1-e^2) sin E.", "quantifier": "for all 0 <= e < 1, |E| < pi, a", "why_tests_cant": "Identity over a continuum.", "anchors": ["v3/kepler/kepler.go: True, Radius"]}
{"id": "C41", "title": "Node passage distances", "statement": "node.EllipticAscending/EllipticDescending return r = a(1-e^2)/(1 +- e cos w) and a time whose eccentric anomaly reproduces the node's true anomaly; node.ParabolicAscending/Descending return r = 2q/(1 +- cos w).", "quantifier": "for all elements with e < 1 away from the singular anomaly", "why_tests_cant": "Identity over a continuum.", "anchors": ["v3/node/node.go: EllipticAscending, EllipticDescending, ParabolicAscending, ParabolicDescending"]}
{"id": "C42", "title": "Parabolic motion solves Barker's equation", "statement": "parabolic.Elements.AnomalyDistance returns v, r with s = tan(v/2) the unique real root of s^3 + 3 s = W, W linear in the time since perihelion, r = q(1+s^2), symmetric about perihelion.", "quantifier": "for all q > 0 and all times", "why_tests_cant": "Continuum of inputs.", "anchors": ["v3/parabolic/parabolic.go: Elements.AnomalyDistance"]}
{"id": "C43", "title": "Near-parabolic limit agrees with the parabola", "statement": "nearparabolic.Elements.AnomalyDistance with eccentricity exactly 1 equals parabolic.Elements.AnomalyDistance.", "quantifier": "for all q > 0 and all times", "why_tests_cant": "Two different closed forms compared on a continuum.", "anchors": ["v3/nearparabolic/nearparabolic.go: Elements.AnomalyDistance", "v3/parabolic/parabolic.go: Elements.AnomalyDistance"]}
{"id": "C44", "title": "Haversine and Pauwels separations are the true separation", "statement": "angle.SepHav and angle.SepPauwels return the angle between the two unit direction vectors: in [0,pi], symmetric, zero only for equal directions, triangle inequality.", "quantifier": "for all right ascensions and declinations", "why_tests_cant": "Continuum; degenerate configurations.", "anchors": ["v3/angle/angle.go: SepHav, SepPauwels"]}
{"id": "C45", "title": "Sep is the true separation across RA wrap", "statement": "angle.Sep returns the angle between the two directions up to the small-angle approximation, also when the two right ascensions straddle 0h.", "quantifier": "for all coordinate pairs", "why_tests_cant": "The failing set is a thin sliver around RA 0h with small separations.", "anchors": ["v3/angle/angle.go: Sep"]}
{"id": "C46", "title": "Equatorial and ecliptic conversions are inverse", "statement": "coord.EclToEq(coord.EqToEcl(ra,dec)) returns the same direction (ra modulo 2 pi), and vice versa, for any obliquity given by its sine and cosine; both preserve the angular separation of any two directions.", "quantifier": "for all directions away from the poles of the two frames", "why_tests_cant": "Continuum.", "anchors": ["v3/coord/coord.go: EqToEcl, EclToEq"]}
{"id": "C47", "title": "Horizontal conversion is invertible", "statement": "coord.HzToEq(coord.EqToHz(ra,dec,observer,time)) returns the same direction.", "quantifier": "for all directions and observers away from the poles of the two frames", "why_tests_cant": "Continuum; hour angle/azimuth sign conventions.", "anchors": ["v3/coord/coord.go: EqToHz, HzToEq"]}
{"id": "C48", "title": "Galactic conversion is invertible", "statement": "coord.GalToEq(coord.EqToGal(ra,dec)) returns the same direction, and vice versa; the north galactic pole has galactic latitude 90 degrees.", "quantifier": "for all directions away from the poles", "why_tests_cant": "Continuum.", "anchors": ["v3/coord/coord.go: EqToGal, GalToEq"]}
{"id": "C49", "title": "Observer's place on the ellipsoid", "statement": "globe.Ellipsoid.ParallaxConstants at height 0 returns a point on the meridian ellipse with outward normal at the given geodetic latitude, and its axial distance equals RadiusAtLatitude / equatorial radius.", "quantifier": "for all latitudes with non zero cosine and all ellipsoids", "why_tests_cant": "Continuum identity.", "anchors": ["v3/globe/globe.go: Ellipsoid.ParallaxConstants, Ellipsoid.RadiusAtLatitude"]}
{"id": "C50", "title": "Globe distance of coincident points", "statement": "globe.Ellipsoid.Distance(p, p) = 0 and Distance(p,q) = Distance(q,p).", "quantifier": "for all coordinates", "why_tests_cant": "Indeterminate 0/0 on the diagonal; random pairs never hit it.", "anchors": ["v3/globe/globe.go: Ellipsoid.Distance"]}
{"id": "C51", "title": "Precession is a rotation", "statement": "precess.Precessor.Precess maps directions by one fixed rotation of the sphere: it preserves the angle between any two stars, is the identity when the epochs coincide, agrees with itself across the near-pole branch, and yields RA in [0, 2 pi).", "quantifier": "for all epochs and all directions", "why_tests_cant": "Two-argument invariant over a continuum, two code branches.", "anchors": ["v3/precess/precess.go: NewPrecessor, Precessor.Precess"]}
{"id": "C52", "title": "In-place use is safe", "statement": "Passing the same struct as source and destination gives the same result as distinct structs and nothing else is modified: precess.Precessor.Precess, EclipticPrecessor.Precess, precess.Position, ApproxPosition, ReduceElements, elementequinox.ReduceB1950ToJ2000, apparent.Position.", "quantifier": "for all heaps, all pointers, all arguments", "why_tests_cant": "Statement over all memory states and aliasing patterns.", "anchors": ["v3/precess/precess.go: Precessor.Precess, Position, ApproxPosition", "v3/apparent/apparent.go: Position", "v3/elementequinox/elementequinox.go: ReduceB1950ToJ2000"]}
{"id": "C53", "title": "VSOP87 loader terminates", "statement": "planetposition.LoadPlanet returns for every file content.", "quantifier": "for all byte contents", "why_tests_cant": "Quantifies over all possible files; a hang cannot be exhibited by a passing test.", "anchors": ["v3/planetposition/planetposition.go: LoadPlanet, LoadPlanetPath, V87Planet.parse"]}
{"id": "C54", "title": "VSOP87 loader reports malformed input as an error", "statement": "planetposition.LoadPlanet returns an error rather than panicking on malformed or truncated files.", "quantifier": "for all byte contents", "why_tests_cant": "All malformed inputs.", "anchors": ["v3/planetposition/planetposition.go: V87Planet.parse"]}
{"id": "C55", "title": "VSOP87 loader loads exactly the terms in the file", "statement": "For every well formed file the loaded series contain exactly the terms of the file, in order, in the coordinate and power their block header names.", "quantifier": "for all well formed files", "why_tests_cant": "Round trip over an infinite family of files.", "anchors": ["v3/planetposition/planetposition.go: V87Planet.parse"]}
{"id": "C56", "title": "Perihelion search never panics and returns the bracketed extremum", "statement": "In perihelion.Perihelion2/Aphelion2 the three final samples strictly bracket the extremum, so the interpolation error branch (panic) is unreachable and the returned time is within half a step of the middle sample.", "quantifier": "for all distance functions, starts and steps for which the crawl stops", "why_tests_cant": "Quantifies over all radius functions.", "anchors": ["v3/perihelion/perihelion.go: ap2a"]}
{"id": "C57", "title": "Perihelion search terminates", "statement": "The crawl of perihelion.Perihelion2/Aphelion2 stops for every distance function that has an extremum in the crawl direction.", "quantifier": "for all distance functions", "why_tests_cant": "Plateaus between equal samples have measure zero in tests.", "anchors": ["v3/perihelion/perihelion.go: ap2a"]}
{"id": "C58", "title": "Lunar eclipse classification is well defined", "statement": "eclipse.Lunar's category, magnitude and semidurations agree with the geometry: total => the square root of the total semiduration has positive argument, semidurations are ordered total <= partial <= penumbral, magnitudes are in the range their category promises, and categories other than None are returned exactly when the penumbral magnitude is non negative.", "quantifier": "for all years", "why_tests_cant": "NaN creeps in only on thin boundary sets.", "anchors": ["v3/eclipse/eclipse.go: Lunar"]}
{"id": "C59", "title": "Solar eclipse classification is well defined", "statement": "eclipse.Solar returns exactly one category per geometry: central exactly when |gamma| < 0.9972, total/annular/hybrid by the sign and size of u, partial magnitudes in [0,1], none beyond the penumbra.", "quantifier": "for all years", "why_tests_cant": "Decision tree boundaries.", "anchors": ["v3/eclipse/eclipse.go: Solar"]}
{"id": "C60", "title": "Rise and set existence", "statement": "rise.ApproxTimes reports an error exactly when the body's altitude never equals the standard altitude during the day; otherwise the hour angle used satisfies the altitude equation and all three times are in [0, 86400).", "quantifier": "for all observers, positions and standard altitudes", "why_tests_cant": "Iff over a continuum.", "anchors": ["v3/rise/rise.go: ApproxTimes"]}
{"id": "C61", "title": "Corrected rise times stay within the day", "statement": "rise.Times returns times in [0, 86400) seconds as documented.", "quantifier": "for all inputs for which no error is returned", "why_tests_cant": "Only longitudes/right ascensions whose sum wraps show it.", "anchors": ["v3/rise/rise.go: Times"]}
{"id": "C62", "title": "Sidereal time ranges and day constancy", "statement": "sidereal.Mean, Mean0UT, Apparent lie in [0, 86400); Mean0UT depends only on the civil day; Mean advances over Mean0UT by 1.00273790935 times the elapsed UT.", "quantifier": "for all jd >= 0", "why_tests_cant": "Modular range and day constancy over all real jd.", "anchors": ["v3/sidereal/sidereal.go: Mean, Mean0UT, Apparent"]}
{"id": "C63", "title": "Apparent0UT is the value at 0h", "statement": "sidereal.Apparent0UT(jd) is the apparent sidereal time at 0h UT of the day containing jd: it is the same for every jd within one civil day and equals Mean0UT plus the nutation in right ascension at that instant.", "quantifier": "for all jd", "why_tests_cant": "Only visible when comparing different instants of the same day.", "anchors": ["v3/sidereal/sidereal.go: Apparent0UT, Mean0UT"]}
{"id": "C64", "title": "General sundial specialises to the simple dials", "statement": "sundial.General with zenithal distance 90 degrees equals Vertical, and with zenithal distance 0 and declination 0 equals Horizontal, line by line and point by point.", "quantifier": "for all latitudes, declinations, stylus lengths in the regular range", "why_tests_cant": "Agreement of lists over a continuum.", "anchors": ["v3/sundial/sundial.go: General, Vertical, Horizontal"]}
{"id": "C65", "title": "Sundial omits points when the Sun is down", "statement": "No sundial function plots a point for an instant when the Sun is below the horizon, polar night included.", "quantifier": "for all latitudes", "why_tests_cant": "Out of domain acos yields NaN whose comparisons are silently false.", "anchors": ["v3/sundial/sundial.go: General, Horizontal, Vertical"]}
{"id": "C66", "title": "Seasons are ordered", "statement": "solstice.March(y) < June(y) < September(y) < December(y) < March(y+1).", "quantifier": "for every integer year y from -1000 to 2999", "why_tests_cant": "Includes the seam between two polynomial tables and the periodic correction; a real-analytic bound.", "anchors": ["v3/solstice/solstice.go: March, June, September, December"]}
{"id": "C67", "title": "Moon phase functions pick the nearest event", "statement": "moonphase.MeanNew (First, Full, Last) selects the lunation number k congruent to 0 (1/4, 1/2, 3/4) mod 1 nearest to the requested decimal year; likewise apsis, moonnode.", "quantifier": "for all years", "why_tests_cant": "Rounding behaviour over a continuum.", "anchors": ["v3/moonphase/moonphase.go: snap", "v3/apsis/apsis.go", "v3/moonnode/moonnode.go"]}
{"id": "C68", "title": "Smallest circle", "statement": "circle.Smallest returns a diameter at least as large as each of the three pairwise separations, equal to the largest in type I, the circumscribed circle in type II, independent of the order of the three bodies.", "quantifier": "for all triples of directions", "why_tests_cant": "Permutation invariance and extremality over a continuum.", "anchors": ["v3/circle/circle.go: Smallest"]}
{"id": "C69", "title": "Topocentric formulas agree", "statement": "parallax.Topocentric and parallax.Topocentric3 describe the same direction (H' = H - delta alpha, same declination), and both vanish without parallax.", "quantifier": "for all geocentric directions and observers with |parallax| below the horizon singularity", "why_tests_cant": "Two formula families on a continuum.", "anchors": ["v3/parallax/parallax.go: Topocentric, Topocentric3"]}
{"id": "C70", "title": "Illuminated fraction", "statement": "illum.Fraction(r, Delta, R) = base.Illuminated(illum.PhaseAngle(r, Delta, R)), lies in [0,1] for every triangle r, Delta, R.", "quantifier": "for all positive triangles", "why_tests_cant": "Identity over a continuum.", "anchors": ["v3/illum/illum.go: Fraction, PhaseAngle", "v3/base/phase.go: Illuminated"]}
{"id": "C71", "title": "Saturn84 and Saturn differ by a constant", "statement": "illum.Saturn84 and illum.Saturn, two calibrations of one formula, differ by a constant for all arguments and are finite when the ring elongation difference is 0.", "quantifier": "for all arguments", "why_tests_cant": "A one character operator slip needs a relation between two functions to be visible.", "anchors": ["v3/illum/illum.go: Saturn, Saturn84"]}
{"id": "C72", "title": "Series constants are not truncated", "statement": "The cubic and quartic coefficients written as 1/n in moonillum.PhaseAngle3, moonposition.Node, moonposition.Perigee and moon are the rational numbers 1/n.", "quantifier": "for all epochs", "why_tests_cant": "The effect is far below the tolerance of the examples near J2000.", "anchors": ["v3/moonillum/moonillum.go: PhaseAngle3", "v3/moonposition/moonposition.go: Node, Perigee"]}
{"id": "C73", "title": "Moon semidiameter constant", "statement": "semidiameter.Moon is the Moon's semidiameter at unit distance, 358473400 km-arcsec / AU = 2.396 arcsec, in particular consistent within 1e-3 with the documented ratio.", "quantifier": "single constant, exact", "why_tests_cant": "No test covers it and the compiler silently performs integer constant division.", "anchors": ["v3/semidiameter/semidiameter.go: Moon"]}
{"id": "C74", "title": "Stellar magnitude algebra", "statement": "stellar.Sum is symmetric, agrees with SumN on two elements, SumN is order independent and brighter than every component; Ratio and Difference are mutually inverse; the two absolute magnitude functions agree under d = 1/parallax.", "quantifier": "for all magnitudes", "why_tests_cant": "Algebra over all reals and lists.", "anchors": ["v3/stellar/stellar.go: Sum, SumN, Ratio, Difference, AbsoluteByParallax, AbsoluteByDistance"]}
{"id": "C75", "title": "Binary star apparent orbit", "statement": "binary.ApparentEccentricity is the eccentricity of the apparent ellipse: in [0,1), 1 for an orbit seen edge on, e for an orbit seen face on; binary.Position returns the projection of the true orbit position.", "quantifier": "for all elements with 0 <= e < 1", "why_tests_cant": "Identity over a continuum.", "anchors": ["v3/binary/binary.go: ApparentEccentricity, Position"]}
{"id": "C76", "title": "Mean elements exist for every planet", "statement": "planetelements.Mean and Node return for every planet constant of the package.", "quantifier": "for all planets 0..7 and all epochs", "why_tests_cant": "Table rows with empty coefficient lists.", "anchors": ["v3/planetelements/planetelements.go: Mean, Node", "v3/base/math.go: Horner"]}
{"id": "C77", "title": "Delta T interpolation never panics", "statement": "deltat.Interp10A never takes its panic branch and returns the tabulated value at each tabulated instant.", "quantifier": "for all jde", "why_tests_cant": "All real inputs.", "anchors": ["v3/deltat/deltat.go: Interp10A, table10A"]}
{"id": "C78", "title": "Jewish calendar dates are dates", "statement": "JewishCalendar returns real calendar dates: the day of Pesach within March/April and the day of the new year within its month.", "quantifier": "for every year y", "why_tests_cant": "A range condition over all years.", "anchors": ["v3/jm/jm.go: JewishCalendar"]}
{"id": "C79", "title": "FullPrecision converges to the fixed point", "statement": "iterate.FullPrecision returns a value that its improvement function moves by less than a relative 1e-15, whatever the fixed point is, including a fixed point at zero.", "quantifier": "for all improvement functions, starting values and iteration limits", "why_tests_cant": "A property of arbitrary improvement functions; the relative test divides by the iterate.", "anchors": ["v3/iterate/iterate.go: FullPrecision"]}
{"id": "C80", "title": "Kepler4 approximation bound", "statement": "kepler.Kepler4 satisfies Kepler's equation, up to full turns, within asin(e) - e radians.", "quantifier": "for all 0 <= e < 1 and all mean anomalies M", "why_tests_cant": "A bound over a two dimensional continuum.", "anchors": ["v3/kepler/kepler.go: Kepler4"]}
{"id": "C81", "title": "Near-parabolic routine always returns", "statement": "nearparabolic.Elements.AnomalyDistance returns a result or its convergence error for any elements and time; the Newton loop without an iteration limit always ends.", "quantifier": "for all real elements and times", "why_tests_cant": "Non-termination cannot be observed by a test; every real starting value must be covered.", "anchors": ["v3/nearparabolic/nearparabolic.go: Elements.AnomalyDistance"]}
{"id": "C82", "title": "Position angle sense", "statement": "angle.RelativePosition returns the position angle of the first body with respect to the second, counted counter-clockwise from north (north through east), as its documentation says.", "quantifier": "for all directions with the first body off the poles", "why_tests_cant": "No test exists; a sign error is invisible for bodies on the same meridian.", "anchors": ["v3/angle/angle.go: RelativePosition"]}
{"id": "C83", "title": "Ecliptic precession and reduction of orbital elements are the same rotation", "statement": "precess.EclipticPrecessor.Precess maps directions by one rotation fixed by the two epochs (both coefficient branches agree with the published polynomials, separations are preserved, equal epochs change nothing), and ReduceElements moves an orbit by that same rotation: the body at any true anomaly on the reduced orbit is in the precessed direction of the body on the original orbit.", "quantifier": "for all epochs, all directions, all elements not lying in the new ecliptic and all true anomalies", "why_tests_cant": "Relates two functions over a continuum of elements and positions; the example tests one comet.", "anchors": ["v3/precess/precess.go: NewEclipticPrecessor, EclipticPrecessor.Precess, ReduceElements"]}
{"id": "C84", "title": "Catalogue equinox reduction of orbital elements", "statement": "elementequinox.ReduceB1950FK4ToJ2000FK5 moves every orbit by one rotation, and ReduceB1950ToJ2000 changes the inclination of every orbit by no more than the tilt between the two ecliptics (24 seconds of arc).", "quantifier": "for all elements, prograde and retrograde", "why_tests_cant": "The test uses one prograde comet; the arc sine hides retrograde inclinations.", "anchors": ["v3/elementequinox/elementequinox.go: ReduceB1950ToJ2000, ReduceB1950FK4ToJ2000FK5"]}
{"id": "C85", "title": "Proper motion in space is straight-line motion", "statement": "precess.ProperMotion3D returns the direction of the star after moving uniformly in a straight line with the velocity given by proper motion and radial velocity, RA in [0, 2 pi) and Dec within a right angle.", "quantifier": "for all directions, distances > 0, velocities and epochs", "why_tests_cant": "Continuum of inputs, statement about derivatives.", "anchors": ["v3/precess/precess.go: ProperMotion3D"]}
{"id": "C86", "title": "Aberration is the transverse part of one velocity", "statement": "apparent.EclipticAberration, Aberration and AberrationRonVondrak displace a star by exactly the part of the Earth's velocity perpendicular to the line of sight; the ecliptic and the equatorial function give the same displacement vector, never longer than kappa (1+e).", "quantifier": "for all stars off the poles, all solar longitudes, eccentricities, obliquities", "why_tests_cant": "Agreement of separately coded formulas over a continuum.", "anchors": ["v3/apparent/apparent.go: EclipticAberration, Aberration, AberrationRonVondrak"]}
{"id": "C87", "title": "Equatorial proper motion carried to the ecliptic", "statement": "The conversion of annual proper motion used by precess.EclipticPosition yields the same velocity vector of the star in the ecliptic frame as the equatorial proper motions in the equatorial frame.", "quantifier": "for all positions off the ecliptic poles, all motions, all obliquities", "why_tests_cant": "Derivative statement over a continuum.", "anchors": ["v3/precess/precess.go: EclipticPosition, eqProperMotionToEcl"]}
{"id": "C88", "title": "Nutation is a small rotation", "statement": "apparent.Nutation displaces a star by the infinitesimal rotation through delta-psi about the pole of the ecliptic and delta-epsilon about the equinox.", "quantifier": "for all stars off the poles, all nutation angles", "why_tests_cant": "Vector identity over a continuum; tests check one star.", "anchors": ["v3/apparent/apparent.go: Nutation"]}
{"id": "C89", "title": "Perihelia and aphelia alternate", "statement": "perihelion.Perihelion and Aphelion number their events by the integer, resp. integer plus one half, nearest to the linear estimate; they return for every planet constant of the package; and for each planet the event half a revolution later is strictly later, so perihelia and aphelia alternate.", "quantifier": "all nine planet constants, all years, all event numbers |k| <= 100000", "why_tests_cant": "unit tests cover two events; ordering is a statement about all pairs of neighbouring events including the periodic terms of the Earth", "anchors": ["v3/perihelion/perihelion.go: Perihelion, Aphelion, ap"]}
{"id": "C90", "title": "Moon phases follow each other in order", "statement": "moonphase.New, First, Full, Last of one lunation and New of the next follow each other in time, at least 5.8 days apart, and a later year never gives an earlier New Moon.", "quantifier": "all lunations within 49000 of 2000 (years -1900 to 5900)", "why_tests_cant": "an ordering of all neighbouring events including all periodic terms", "anchors": ["v3/moonphase/moonphase.go: New, First, Full, Last"]}
{"id": "C91", "title": "Lunar apsides and nodes alternate", "statement": "apsis.Perigee and Apogee alternate, moonnode.Ascending and Descending alternate, and the parallax at every perigee exceeds the parallax at every apogee.", "quantifier": "all months within 52000 of 2000", "why_tests_cant": "an ordering of all neighbouring events including all periodic terms", "anchors": ["v3/apsis/apsis.go: Perigee, Apogee, PerigeeParallax, ApogeeParallax", "v3/moonnode/moonnode.go: Ascending, Descending"]}
{"id": "C92", "title": "Planetary argument A1 of the Moon phases", "statement": "The correction of moonphase.New, First, Full, Last uses the argument A1 = 299.77 + 0.107408 k - 0.009173 T^2 degrees of chapter 49, as package eclipse does.", "quantifier": "all lunation numbers", "why_tests_cant": "a difference of seconds is below the tolerance of the example tests", "anchors": ["v3/moonphase/moonphase.go: newMp", "v3/eclipse/eclipse.go: g"]}
{"id": "C93", "title": "Mean phases are within half a day of the true phases", "statement": "As documented, moonphase.MeanNew (MeanFirst, MeanFull, MeanLast) is within .5 day of the true date of the phase.", "quantifier": "all lunations", "why_tests_cant": "a bound over all lunations", "anchors": ["v3/moonphase/moonphase.go: MeanNew, MeanFirst, MeanFull, MeanLast"]}
{"id": "C94", "title": "The quick test for no eclipse is sound", "statement": "When eclipse.Solar or eclipse.Lunar leaves early because |sin F| > 0.36, the shadow axis computed by the full formulas passes outside the limits for an eclipse, so no eclipse is missed.", "quantifier": "all lunations within 37000 of 2000", "why_tests_cant": "an inequality over all combinations of the anomalies of Sun and Moon", "anchors": ["v3/eclipse/eclipse.go: g"]}
{"id": "C95", "title": "Phase angle of the Moon", "statement": "moonillum.PhaseAngleEq is the angle at the Moon between the Earth and the Sun; PhaseAngleEcl is the same for the Sun on the ecliptic; the less accurate PhaseAngleEq2 exceeds it by at most arcsin(distance of the Moon / distance of the Sun) and never falls below it.", "quantifier": "all geocentric positions of Moon and Sun", "why_tests_cant": "an identity over a continuum and an error bound no sample can establish", "anchors": ["v3/moonillum/moonillum.go: PhaseAngleEq, PhaseAngleEq2, PhaseAngleEcl, PhaseAngleEcl2"]}
{"id": "C96", "title": "Bright limb points to the Sun", "statement": "base.Limb returns an angle in [0, 2 pi) that is the position angle, from north through east, of the great circle from the body to the Sun.", "quantifier": "all pairs of directions", "why_tests_cant": "quadrants of atan2 over a continuum", "anchors": ["v3/base/phase.go: Limb"]}
{"id": "C97", "title": "Illuminated fraction of Venus is a fraction", "statement": "illum.FractionVenus lies in [0, 1].", "quantifier": "all instants", "why_tests_cant": "the rounded constants let it exceed 1 only near superior conjunction", "anchors": ["v3/illum/illum.go: FractionVenus"]}
{"id": "C98", "title": "Apparent polar semidiameter of Saturn", "statement": "semidiameter.SaturnApparentPolar lies between the polar and the equatorial semidiameter at the same distance, and its square is the mean of theirs weighted by cos^2 B and sin^2 B.", "quantifier": "all distances and Saturnicentric latitudes", "why_tests_cant": "inequality over a continuum", "anchors": ["v3/semidiameter/semidiameter.go: SaturnApparentPolar, Semidiameter"]}
{"id": "C99", "title": "Topocentric ecliptical place", "statement": "parallax.TopocentricEcliptical returns the direction of the body from the observer in the ecliptic frame (geocentric direction minus the observer's place), longitude in [0, 2 pi), and the semidiameter scaled by the inverse topocentric distance.", "quantifier": "all bodies and observers, except the meridian of longitude 90 or 270 degrees where the formula divides by zero", "why_tests_cant": "vector identity over a continuum, quadrants", "anchors": ["v3/parallax/parallax.go: TopocentricEcliptical"]}
{"id": "C100", "title": "Equatorial sundial points are finite", "statement": "All points returned by sundial.Equatorial have finite coordinates.", "quantifier": "for all latitudes and stylus lengths", "why_tests_cant": "Zero divisor at one of the seven declinations; every latitude is affected.", "anchors": ["v3/sundial/sundial.go: Equatorial"]}
{"id": "C101", "title": "Sundial points are shadows", "statement": "Every point of sundial.General is the shadow of the tip of the stylus on the plane when the Sun has the given hour angle and declination, the Sun being on the upper side of the plane; the center is where the line through the tip parallel to the axis of the sky meets the plane, u its distance from the tip and psi its angle with the plane.", "quantifier": "for all latitudes, plane orientations, stylus lengths, hours and declinations", "why_tests_cant": "Geometric identity over a continuum of planes.", "anchors": ["v3/sundial/sundial.go: General"]}
{"id": "C102", "title": "Parallactic angle", "statement": "parallactic.ParallacticAngle is the position angle of the zenith at the body, from north through east, in (-pi, pi]; ParallacticAngleOnHorizon is its magnitude when the body is on the horizon, and not a number exactly when the body never reaches the horizon.", "quantifier": "for all latitudes other than the poles, all declinations and hour angles", "why_tests_cant": "quadrant of atan2 over a continuum; a special case against the general one", "anchors": ["v3/parallactic/parallactic.go: ParallacticAngle, ParallacticAngleOnHorizon"]}
{"id": "C103", "title": "Ecliptic and horizon", "statement": "The two longitudes of parallactic.EclipticAtHorizon are exactly the points of the ecliptic with altitude zero, half a turn apart, and the angle is that between the zenith and the pole of the ecliptic; EclipticAtEquator is the angle of the ecliptic with the parallel of declination.", "quantifier": "for all obliquities, latitudes other than the poles, sidereal times", "why_tests_cant": "completeness of the two solutions over a continuum", "anchors": ["v3/parallactic/parallactic.go: EclipticAtHorizon, EclipticAtEquator"]}
{"id": "C104", "title": "Diurnal path at the horizon", "statement": "parallactic.DiurnalPathAtHorizon is the angle between the velocity of the body and the horizon when the body rises or sets, for an observer on the equator too, and not a number exactly for bodies that neither rise nor set.", "quantifier": "for all declinations, all latitudes other than the poles", "why_tests_cant": "a derivative statement with a division by zero at the equator", "anchors": ["v3/parallactic/parallactic.go: DiurnalPathAtHorizon"]}
{"id": "C105", "title": "Time of alignment", "statement": "line.Time tabulates a function that is zero exactly when the body is on the great circle through the stars, and returns a time in the table where the quartic through the five rows is zero; a body aligned at a row of the table is found.", "quantifier": "for all stars, bodies and time ranges", "why_tests_cant": "soundness of an iteration for arbitrary tables", "anchors": ["v3/line/line.go: Time", "v3/interp/interp.go: Len5.Zero"]}
{"id": "C106", "title": "Angle between lines", "statement": "line.Angle is the angle at the middle point between the directions to the other two, and the angle of line.AngleError is, as documented, the same angle.", "quantifier": "for all triples of points off the poles", "why_tests_cant": "agreement of two algorithms over a continuum", "anchors": ["v3/line/line.go: Angle, AngleError"]}
{"id": "C107", "title": "Distance from a line", "statement": "The magnitude of line.Error is the least angular distance of the point from the great circle through the other two; the error of line.AngleError agrees with it.", "quantifier": "for all triples of points off the poles, right ascension of the point other than 6h and 18h", "why_tests_cant": "a minimum over all points of a circle", "anchors": ["v3/line/line.go: Error, AngleError"]}
{"id": "C108", "title": "Refraction", "statement": "Refraction is never negative, decreases with altitude, and correcting for it keeps bodies in order of altitude; the formulas for high altitudes vanish at the zenith.", "quantifier": "for all altitudes from horizon to zenith (above 15 degrees for the Gt15 functions)", "why_tests_cant": "monotonicity and sign over a continuum", "anchors": ["v3/refraction/refract.go: Gt15True, Gt15Apparent, Bennett, Bennett2, Saemundsson"]}
{"id": "C109", "title": "Speed on an elliptic orbit", "statement": "elliptic.Velocity at the perihelion and aphelion distances agrees with VPerihelion and VAphelion to a relative 10^-6; distance times speed is the same at both ends (law of areas); and the speed decreases strictly as the distance grows.", "quantifier": "for all semimajor axes a > 0 and eccentricities 0 <= e < 1, all distances", "why_tests_cant": "three separately rounded constants compared over a continuum of orbits", "anchors": ["v3/elliptic/elliptic.go: Velocity, VPerihelion, VAphelion"]}
{"id": "C110", "title": "Length of the ellipse by series", "statement": "The loop of elliptic.Length4 ends for every ellipse, and its result is the arc length of the ellipse up to the terms lost in rounding: at most eta (a+b)^2/(4ab) of pi (a+b), where eta is the rounding unit, and never above the true length.", "quantifier": "for all a > 0 and 0 <= e < 1, every rounding of the running sum that is monotone and of relative size eta", "why_tests_cant": "termination of a data dependent loop, and comparison with an integral that has no closed form", "anchors": ["v3/elliptic/elliptic.go: Length4"]}
{"id": "C111", "title": "Length of the ellipse by approximations", "statement": "elliptic.Length1 (Ramanujan) never exceeds the arc length and falls short by at most 0.0054 h^3 pi (a+b), less than 0.43 percent; elliptic.Length2 is never below it and exceeds it by at most 0.043 h^3 pi (a+b), less than 3.4 percent.", "quantifier": "for all a > 0 and 0 <= e < 1, h = ((a-b)/(a+b))^2", "why_tests_cant": "error bounds against an elliptic integral over all shapes", "anchors": ["v3/elliptic/elliptic.go: Length1, Length2"]}
{"id": "C112", "title": "Place of a body on an elliptic orbit", "statement": "The closure of elliptic.Elements.Position solves Kepler's equation to 10^-15 whichever of the two algorithms is taken, and the rectangular coordinates are the point of the ellipse turned by the argument of perihelion, inclination and node into the ecliptic frame and by the obliquity of J2000 into the equatorial frame.", "quantifier": "for all elements with 0 <= e < 1, all times (except exactly at aphelion, where the half angle tangent is infinite)", "why_tests_cant": "equivalence of the auxiliary constants a,b,c,A,B,C with rotation matrices over six dimensions", "anchors": ["v3/elliptic/elliptic.go: Elements.Position", "v3/kepler/kepler.go: Kepler2b, Kepler3, True, Radius"]}
{"id": "C113", "title": "Astrometric place and light time", "statement": "elliptic.AstrometricJ2000 returns the direction from the Earth to the place of the body one light time earlier, right ascension in [0, 2 pi), and the elongation is the angle at the Earth between that direction and the Sun; the light time of one iteration is within 0.0057755183 V of the exact one for a body slower than V AU per day; elliptic.Position starts from the same direction in ecliptic coordinates and, without the corrections, ends with it in equatorial coordinates.", "quantifier": "for all motions of Earth and body", "why_tests_cant": "geometric identity over arbitrary motions", "anchors": ["v3/elliptic/elliptic.go: AstrometricJ2000, Position"]}
{"id": "C114", "title": "Coordinates of the Sun", "statement": "solar.True returns longitude and anomaly in [0, 2 pi) differing by the longitude of perigee; the equation of the centre stays below 2 degrees for ten centuries; Radius lies between the perihelion and aphelion distances; TrueEquatorial and ApparentEquatorial are the directions of the points of the ecliptic turned by the (corrected) obliquity, the apparent longitude within 0.0105 degree of the true one; TrueVSOP87 is the direction opposite to the Earth up to the FK5 correction of 0.13 arc second; ApparentEquatorialVSOP87 is the apparent ecliptic place turned to the equator.", "quantifier": "for all times, any position of the Earth", "why_tests_cant": "identities of directions and bounds over a continuum", "anchors": ["v3/solar/solar.go: True, Radius, TrueEquatorial, ApparentLongitude, ApparentEquatorial, TrueVSOP87, ApparentVSOP87, ApparentEquatorialVSOP87"]}
{"id": "C115", "title": "Equation of time", "statement": "eqtime.E is in [-pi, pi) and congruent modulo full turns to the mean longitude less .0057183 degrees less the apparent right ascension of the Sun plus the equation of the equinoxes; eqtime.ESmart is below twenty minutes for twenty centuries and agrees with the mean longitude less the right ascension of solar.TrueEquatorial to 0.0004 radian (5.5 seconds of time) for two centuries.", "quantifier": "for all times in the stated ranges", "why_tests_cant": "an error bound of a truncated expansion over all times", "anchors": ["v3/eqtime/eqtime.go: E, ESmart", "v3/solar/solar.go: TrueEquatorial, ApparentEquatorialVSOP87"]}
{"id": "C116", "title": "Nutation and obliquity", "statement": "nutation.MeanObliquity and MeanObliquityLaskar agree to 0.35 arc second for ten centuries and to 2 arc seconds for twenty, the obliquity decreases over that time; nutation in longitude is below 19.44 arc seconds and in obliquity below 10.08 arc seconds, but for the secular terms; ApproxNutation is, as documented, within 0.5 arc second in longitude and 0.1 arc second in obliquity of Nutation.", "quantifier": "for all times within the ranges (half a century for ApproxNutation)", "why_tests_cant": "bounds over all combinations of five angles", "anchors": ["v3/nutation/nutation.go: Nutation, ApproxNutation, MeanObliquity, MeanObliquityLaskar, NutationInRA"]}
{"id": "C117", "title": "Physical ephemeris of the Sun", "statement": "solardisk.Ephemeris returns B0 of at most 7.25 degrees and L0 in [0, 2 pi), the coordinates of the direction to the Earth in the frame of the solar equator that turns once in 25.38 days, and P, the position angle of the solar pole from the celestial pole; solardisk.Cycle numbers rotations that start in order, 26.9 to 27.7 days apart.", "quantifier": "for all times, longitudes and obliquities", "why_tests_cant": "geometry over a continuum, quadrants of atan2", "anchors": ["v3/solardisk/solardisk.go: Ephemeris, Cycle"]}
{"id": "C118", "title": "Rectangular coordinates of the Sun", "statement": "solarxyz.PositionEquinox is PositionJ2000 turned by the precession of package precess from 2000 to the epoch, so that the distance does not depend on the equinox and the epoch 2000 changes nothing; PositionB1950 agrees with PositionEquinox for the epoch B1950 to 10^-9 of the distance; the matrix of PositionJ2000 keeps distances to 10^-12; Position is the true place of the Sun but for the cosine of its latitude.", "quantifier": "for all times, epochs and positions of the Earth", "why_tests_cant": "agreement of matrix and angle formulas over all epochs", "anchors": ["v3/solarxyz/solarxyz.go: Position, LongitudeJ2000, PositionJ2000, PositionB1950, PositionEquinox", "v3/precess/precess.go: NewPrecessor"]}
{"id": "C119", "title": "Conjunctions", "statement": "conjunction.Planetary and Stellar return a time in the table where the quartic through the five differences of the first coordinate is zero, and the value there of the quartic through the differences of the second; bodies in uniform relative motion that are in conjunction within the table are found; a star is a planet that does not move.", "quantifier": "for all tables of five rows", "why_tests_cant": "soundness of an iteration for arbitrary tables; completeness over the width of the table", "anchors": ["v3/conjunction/conjunction.go: Planetary, Stellar", "v3/interp/interp.go: Len5.Zero, Len5.InterpolateXStrict"]}
{"id": "C120", "title": "Least separation by interpolation", "statement": "angle.MinSep returns the least value of the parabola through the separations in the three rows, at a time in the table.", "quantifier": "for all tables of three rows", "why_tests_cant": "a minimum over a continuum for arbitrary tables", "anchors": ["v3/angle/angle.go: MinSep", "v3/interp/interp.go: Len3.Extremum"]}
{"id": "C121", "title": "Least separation in rectangular coordinates", "statement": "The plane coordinates of angle.MinSepRect are within a cube of the separation of the projection on the plane that touches the sphere at the first body, where distances are tangents of separations; its result is the distance at a stationary point of the path, exactly the least one for uniform motion; whenever there is a least separation it is returned, and it lies in the table.", "quantifier": "for all tables of three rows, separations below 0.1 radian for the bound", "why_tests_cant": "an error bound over the whole sphere, soundness of an iteration", "anchors": ["v3/angle/angle.go: MinSepRect"]}
{"id": "C122", "title": "Conjunctions and oppositions of the planets", "statement": "The functions of package planetary never panic; the events come in the order of the years asked for, two different ones at least 353 days apart for the outer planets (95 Mercury, 579 Venus, 713 Mars), each at most half a synodic period and the amplitude of the correction from the date, and no other event is nearer by more than twice that amplitude.", "quantifier": "for all years 10 to 3990", "why_tests_cant": "bounds on sums of periodic terms over all events of four thousand years", "anchors": ["v3/planetary/planetary.go: MercuryInfConj, MercurySupConj, VenusInfConj, MarsOpp, JupiterOpp, SaturnOpp, SaturnConj, UranusOpp, NeptuneOpp, MercuryEastElongation, MercuryWestElongation, MarsStation2"]}
{"id": "C123", "title": "Nearest elongation and station", "statement": "The functions MercuryEastElongation, MercuryWestElongation and MarsStation2 return, as documented, the event nearest the given time.", "quantifier": "for all years 20 to 3980", "why_tests_cant": "compares each answer with all others", "anchors": ["v3/planetary/planetary.go: MercuryEastElongation, MercuryWestElongation, MarsStation2, mean"]}
{"id": "C124", "title": "Order of planetary phenomena", "statement": "For the same year argument Mercury is at greatest eastern elongation 14 to 30 days before inferior conjunction and at greatest western elongation 14 to 29 days after it, Mars stationary 28 to 46 days after opposition; the elongations are between 16.6 and 28.2 degrees.", "quantifier": "for all years 10 to 3990", "why_tests_cant": "difference of two tables of periodic terms over all cycles", "anchors": ["v3/planetary/planetary.go: MercuryInfConj, MercuryEastElongation, MercuryWestElongation, MarsOpp, MarsStation2"]}
{"id": "C125", "title": "Extreme declinations of the Moon", "statement": "moonmaxdec.North returns northern and South southern declinations, between 17.7 and 29.7 degrees; southern and northern extremes come in turn, at least 9.9 days apart, the results follow the order of the years asked for; as documented, the event returned is the one nearest the given date.", "quantifier": "for all events of the years 10 to 3990", "why_tests_cant": "bounds on sums of periodic terms over all events; nearest among all events", "anchors": ["v3/moonmaxdec/moonmaxdec.go: North, South"]}
{"id": "C126", "title": "The Moon stays near the ecliptic and its distance and parallax are in the right range", "statement": "moonposition.Position: between the years 0 and 4000 the latitude is at most 6.1 degrees, the distance between 355270 and 414731 km, the longitude within 9.23 degrees of the mean longitude and in [0, 360) degrees. Parallax(d) is the angle whose sine is 6378.14/d, decreasing with distance; for the Moon it is between 52.8 and 61.8 arc minutes.", "quantifier": "All JDE with |T| <= 20 Julian centuries; all distances.", "why_tests_cant": "Tests check one date. The statement is over a continuum of dates; it depends on the sum of all amplitudes of two 60-row tables and on the eccentricity factor.", "anchors": ["v3/moonposition/moonposition.go:17-88", "v3/moonposition/moonposition.go:93-248"]}
{"id": "C127", "title": "The true node of the lunar orbit stays near the mean node, all in [0, 360)", "statement": "moonposition.Node, Perigee and TrueNode return longitudes in [0, 360) degrees, and TrueNode is within 1.97 degrees of Node.", "quantifier": "All JDE.", "why_tests_cant": "Range and bound over a continuum of dates; the periodic terms take the result over the border only at rare times.", "anchors": ["v3/moonposition/moonposition.go:251-273"]}
{"id": "C128", "title": "Librations are the selenographic coordinates of the Earth; the position angle is that of the lunar axis", "statement": "moon.Physical: the optical librations are the coordinates of the direction of the Earth in the frame of the lunar equator, the physical ones change them by less than .1 degree; longitude is returned in (-180, 180], latitude is below 7.9 degrees, P in [0, 360); sin P cos b is the eastward component of the axis, and P the position angle of the projected axis when b is consistent with it.", "quantifier": "All JDE between the years 0 and 4000; all longitudes and latitudes for the geometry.", "why_tests_cant": "Geometric identity over a continuum of positions; a test has one date with few digits.", "anchors": ["v3/moon/moon.go:35-42", "v3/moon/moon.go:56-172"]}
{"id": "C129", "title": "Selenographic coordinates of the Sun are those of its direction from the Moon", "statement": "moon.Physical: l0, b0 are the coordinates, in the lunar frame, of the direction from the Moon to the Sun: the heliocentric direction of the Moon is right to second order in the ratio of the distances, and all longitudes are counted from the same equinox.", "quantifier": "All dates and all positions of the Earth.", "why_tests_cant": "One test date with two decimals: the nutation (up to .005 degree) is invisible.", "anchors": ["v3/moon/moon.go:174-180", "v3/moon/moon.go:129-149"]}
{"id": "C130", "title": "Altitude of the Sun at a lunar site is the complement of its zenith distance", "statement": "moon.SunAltitude(eta, theta, l0, b0) is 90 degrees less the angular distance between the site and the subsolar point; 90 degrees at the subsolar point.", "quantifier": "All sites and Sun coordinates.", "why_tests_cant": "Identity on the sphere for a continuum of arguments.", "anchors": ["v3/moon/moon.go:216-221"]}
{"id": "C131", "title": "Lunar sunrise and sunset are the events nearest the given date", "statement": "moon.Sunrise and Sunset return the time of the sunrise (sunset) at the site nearest the given jde, which can be any date.", "quantifier": "All dates and sites; Sun moving uniformly at 12.19075 degrees per day on the lunar equator.", "why_tests_cant": "Tests start within a day of the event; the iteration of two steps depends on the starting phase over the whole lunar day.", "anchors": ["v3/moon/moon.go:229-249"]}
{"id": "C132", "title": "Near-parabolic positions obey the law of areas", "statement": "When nearparabolic.AnomalyDistance returns without an error, the anomaly is in [0,2π), the distance is that of the conic of the given perihelion distance and eccentricity at that anomaly, on the branch about the Sun, and the area swept since perihelion is the one the law of areas gives for the elapsed time, to 5e-8 q²(1+tan²(ν/2)). Close to perihelion no error is returned.", "quantifier": "All perihelion distances, times and eccentricities from 1/3 to 3 (ellipses, the parabola and hyperbolas).", "why_tests_cant": "The example of the book is a few points of one orbit; the error of the truncated series and of the nested iterations must be bounded over a continuum of orbits and times.", "anchors": ["v3/nearparabolic/nearparabolic.go:22-85"]}
{"id": "C133", "title": "Heliocentric positions are the VSOP87 series of the loaded file", "statement": "For a planet loaded from a well-formed VSOP87 file, Position2000 returns in B and R the values Σ Tⁿ Σ A cos(B+CT) of the terms printed in the file, T in Julian millennia from 2000.0, and in L the value reduced to [0,2π). Position is that position carried to the mean ecliptic and equinox of date by the precession rotation; the radius is unchanged, and at 2000.0 both agree.", "quantifier": "All file contents meeting the format, all bodies, all dates.", "why_tests_cant": "Tests use the real data files on a few dates; the relation between the bytes of the file and the value returned is over all files and dates.", "anchors": ["v3/planetposition/planetposition.go:92-240"]}
{"id": "C134", "title": "ToFK5 is a small rotation", "statement": "planetposition.ToFK5 displaces every point as one and the same infinitesimal rotation of the sphere (about an axis near the ecliptic), of at most 0.17 arc seconds on the sky.", "quantifier": "All longitudes, latitudes not exactly at a pole, all dates.", "why_tests_cant": "One worked example; being a rotation is a statement over the whole sphere, and the formula has a tangent of the latitude.", "anchors": ["v3/planetposition/planetposition.go:242-253"]}
{"id": "C135", "title": "Times and Julian days are inverse to each other", "statement": "TimeToJD is 2451544.5 plus the days since 2000 January 1 0h UT; JDToTime returns the instant of that Julian day, cut to the nanosecond, in the proleptic Gregorian calendar for all dates, also before 1582. Going from a time to a Julian day and back is the identity, the other way loses less than a nanosecond.", "quantifier": "All instants and all Julian days from -0.5; exact arithmetic, Go's time package as specified.", "why_tests_cant": "Sampled round trips cannot show that no date falls in the wrong calendar or month.", "anchors": ["v3/julian/julian.go:132-150", "v3/julian/julian.go:105-128"]}
{"id": "C136", "title": "Julian and Besselian years", "statement": "JulianYearToJDE and JDEToJulianYear are inverse, so are the Besselian functions; a Julian century is a hundred Julian years; J2000.0 is JDE 2451545, B1950.0 is JDE 2433282.4235 within 0.0001 day; the Gregorian calendar falls behind the Julian years by three days in each 400 years.", "quantifier": "All years.", "why_tests_cant": "The inverse relation is over all reals.", "anchors": ["v3/base/julian.go:32-50"]}
{"id": "C137", "title": "Saturn's ring: geometry seen from the Earth and the Sun", "statement": "saturnring.Ring uses the vector from the Earth to Saturn (error at most R(1−cos b0) because of the Earth's neglected latitude). B and B′ are the elevations of Earth and Sun above the ring plane, at most 90°, positive on the north side; the axes satisfy a·Δ = 375.35″ and b = a|sin B| ≤ a; P is the position angle of the ring's north pole as seen at Saturn's apparent place.", "quantifier": "All dates and all planetary theories with Saturn not in the direction of the ecliptic pole; P for |T| ≤ 100 centuries.", "why_tests_cant": "One worked example; sign conventions and quadrants fail in configurations that tests do not contain.", "anchors": ["v3/saturnring/saturnring.go:33-152"]}
{"id": "C138", "title": "Saturn's ring: ΔU is the difference of Saturnicentric longitudes", "statement": "ΔU is the angle, in the plane of the ring, between the directions to the Sun and to the Earth: between 0 and 180°, small because the Sun and the Earth are always near each other as seen from Saturn; illum.Saturn needs it.", "quantifier": "All dates and all planetary theories.", "why_tests_cant": "The worked example is far from the branch cut of the arctangent; the defect appears only when Saturn is near a node of its ring.", "anchors": ["v3/saturnring/saturnring.go:106-114", "v3/illum/illum.go:168-175"]}
{"id": "C139", "title": "Physical ephemeris of Mars", "statement": "mars.Physical: the direction from Mars to the Earth has declination DE and, with the central meridian ω in [0,2π), areographic longitude consistent with the rotation of 350.89200025° a day at the time the light left; DS is the latitude of the Sun; P in [0,2π) is the position angle of the north pole at the apparent place; Q in (0,2π] points away from the Sun; d is 9.36″ at unit distance, k is (1+cos i)/2 with i the phase angle (up to a term in the square of the Earth's latitude), q is the dark part d(1−k).", "quantifier": "All planetary theories and dates within 100 centuries, Mars not exactly at a pole of the coordinates.", "why_tests_cant": "One worked example; quadrants, signs and light-time corrections must hold for all configurations.", "anchors": ["v3/mars/mars.go:29-143"]}
{"id": "C140", "title": "Physical ephemeris of Jupiter", "statement": "jupiter.Physical: DE is the latitude of the Earth and DS that of the Sun above Jupiter's equator; the central meridians ω1, ω2 of the two systems are in [0,2π), follow their rotations at the moment the light left Jupiter and contain the phase correction toward the Sun; P in [0,2π) is the position angle of the north pole at the apparent place.", "quantifier": "All planetary theories and dates, Jupiter not exactly in the direction of a pole of the coordinates.", "why_tests_cant": "One worked example; signs, quadrants and light time must be right in all configurations.", "anchors": ["v3/jupiter/jupiter.go:33-125"]}
{"id": "C141", "title": "Light-time iteration gives the place at which the light left", "statement": "For a planet that moves slower than light there is exactly one distance D such that light needs just the time the planet's place is taken back. The two passes in mars, jupiter and saturnring end within (v/c)²·|Δ0−D| of it: 5e-8 astronomical units for the real planets.", "quantifier": "All Lipschitz motions slower than light, all starting distances, all dates.", "why_tests_cant": "Convergence of an iteration for arbitrary motions cannot be sampled.", "anchors": ["v3/mars/mars.go:53-78", "v3/jupiter/jupiter.go:52-77", "v3/saturnring/saturnring.go:60-90"]}
{"id": "C142", "title": "Low-accuracy ephemeris of Jupiter: triangle, declinations, central meridians", "statement": "jupiter.Physical2 never gives NaN; Sun, Earth and Jupiter form a triangle (ψ is the angle at Jupiter, under 12°); |DS| ≤ 3.12°, |DE| ≤ 3.79°, |DE−DS| ≤ 0.67°; ω1, ω2 in [0,2π) follow the rotation of the systems at the time the light left with phase correction (1−cos ψ)/2 of the right sign.", "quantifier": "All real dates.", "why_tests_cant": "The argument of an arcsine must never exceed 1, for all dates; bounds over all dates.", "anchors": ["v3/jupiter/jupiter.go:137-175"]}
{"id": "C143", "title": "Galilean satellites move on ellipses in Jupiter's equator", "statement": "jupitermoons.Positions: each satellite is at (ρ sin U, −ρ cos U sin DE) with DE of jupiter.Physical2 and ρ within the satellite's range of distances; so |X| ≤ ρ; Io, Europa and Ganymede always have |Y| < 1 (they cross the disk in each revolution).", "quantifier": "All real dates.", "why_tests_cant": "A statement about all dates.", "anchors": ["v3/jupitermoons/jupitermoons.go:24-74"]}
{"id": "C144", "title": "Io, Europa and Ganymede are never all three in front of the disk", "statement": "The Laplace resonance: whenever Io, Europa and Ganymede all have |X| < 1, Io and Europa are on opposite sides of Jupiter, so a triple transit, or a triple occultation, never occurs.", "quantifier": "All dates within 270 000 years of J2000.", "why_tests_cant": "An event that never occurs cannot be established by samples.", "anchors": ["v3/jupitermoons/jupitermoons.go:47-74"]}
{"id": "C145", "title": "Planetary phenomena agree with the mean longitudes of the other packages", "statement": "Each conjunction or opposition of package planetary is within a few days (Mars 33.5) of a date at which planetelements.Mean and the Sun's mean longitude of package solar have the planet in that configuration, to 0.01° (Jupiter 0.04°, Saturn 0.1°); the anomaly used is the Sun's mean anomaly of package solar.", "quantifier": "All years 10 to 3990.", "why_tests_cant": "Cross-package consistency for all synodic periods; a wrong digit in an epoch or a period shows only far from the sampled year.", "anchors": ["v3/planetary/planetary.go:18-25", "v3/planetary/planetary.go:166-186", "v3/planetelements/planetelements.go:46-131", "v3/solar/solar.go:37-57"]}
{"id": "C146", "title": "Orbital elements carried from B1950 to J2000 describe the same orbit in space", "statement": "Reducing inclination, argument of perihelion and node from B1950 to J2000 turns the orbit as a whole: for every position angle from perihelion, the direction computed from the new elements is a fixed rotation of the direction computed from the old ones (the rotation between the two ecliptics; for the FK4 to FK5 version the rotation by the angles L, J, L').  The rotation agrees with the precession angles of package precess.  This must hold for retrograde orbits (inclination above 90 degrees) as well.", "quantifier": "for all inclinations, nodes, arguments of perihelion and all positions in the orbit, with a new inclination away from 0 and 180 degrees", "why_tests_cant": "Tests reduce one or two comets with low inclination and compare three angles; whether the three new angles are consistent with one rotation for every orbit, including retrograde ones, is a statement over all orbits.", "anchors": ["v3/elementequinox/elementequinox.go:28-64"]}
{"id": "C147", "title": "Polynomials for Delta T agree with the table", "statement": "At every instant of their ranges deltat.Poly1800to1997, Poly1800to1899 and Poly1900to1997 agree with deltat.Interp10A to 2.31, 0.95 and 1.02 seconds, and at the tabulated instants to the documented 2.3, 0.9 and 0.9 seconds; Interp10A uses a year within 0.01 of the uniform count; the polynomials for other epochs join to 1.3 seconds and without a step in 2100.", "quantifier": "for all real Julian days in 1800 to 1997", "why_tests_cant": "Tests evaluate each polynomial at one or two dates; agreement of a degree 12 polynomial with a piecewise interpolation at every real instant is a statement over an interval.", "anchors": ["v3/deltat/deltat.go:31-147"]}
{"id": "C148", "title": "Satellites of Saturn are projected from one orbit in space", "statement": "saturnmoons.Positions: the elements of each satellite describe one position in space (for Rhea, Titan, Hyperion and Iapetus the one given by the elements referred to the ecliptic), and the returned (X, Y) are its coordinates on the sky, X along the line of sight times the pole of the ring, Y along the projected pole, in perspective at Saturn's distance and with X displaced by at most 1/20947 of the depth; X² + Y² + Z² is the squared distance, so no root of a negative number is taken.  The plane of the ring is that of package saturnring.", "quantifier": "for all dates (within five centuries of 1885 where Iapetus is concerned) and all positions of the Earth and Saturn", "why_tests_cant": "Tests compare sixteen numbers for one date; that the eight chains of rotations describe an orthogonal projection for every date and geometry is a statement over all inputs.", "anchors": ["v3/saturnmoons/saturnmoons.go:28-109", "v3/saturnmoons/saturnmoons.go:220-243", "v3/saturnring/saturnring.go:66-71"]}
{"id": "C149", "title": "Satellites of Saturn keep their order and obey Kepler's third law", "statement": "The distances of the eight satellites stay in disjoint ranges and are returned in increasing order; the mean motions and semimajor axes satisfy n²a³ = constant to 0.25 %.", "quantifier": "for all dates within five centuries of 1885 (mean motions: within four centuries of 1900)", "why_tests_cant": "A wrong digit in one of some 250 coefficients shows only at some dates; the test has one date.", "anchors": ["v3/saturnmoons/saturnmoons.go:121-155", "v3/saturnmoons/saturnmoons.go:159-368"]}
{"id": "C150", "title": "Galilean satellites by the theory E5 are projected from one orbit in space", "statement": "jupitermoons.E5 returns four positions; each is the projection on the sky (X along line of sight times Jupiter's pole, Y along the projected pole) of the satellite's place given by longitude, latitude and radius in Jupiter's equator, in perspective at Jupiter's distance, with X displaced by at most 1/17295 of the depth; X² + Y² + Z² is the squared radius, so no root of a negative number is taken.", "quantifier": "for all dates and all Earth and Jupiter ephemerides at least 0.02 au apart", "why_tests_cant": "The test compares eight numbers for one date; that the chain of six rotations is an orthogonal projection in every geometry is a statement over all inputs.", "anchors": ["v3/jupitermoons/jupitermoons.go:80-104", "v3/jupitermoons/jupitermoons.go:378-449"]}
{"id": "C151", "title": "Theory E5 keeps distances, latitudes, the third law and the Laplace resonance", "statement": "The four distances stay in disjoint narrow ranges; the satellites stay within 0.06, 0.52, 0.35, 0.73 degrees of Jupiter's equator; longitudes stay within 1.31 degrees of uniform motions with n²a³ constant to 0.05 %; the mean longitudes satisfy l1 − 3 l2 + 2 l3 = 180 degrees, so the three inner satellites are never within 29 degrees of one direction.", "quantifier": "for all instants (the resonance: within 2400 years of 1976)", "why_tests_cant": "A wrong digit in one of some 230 coefficients shows only at some dates; the test has one date.", "anchors": ["v3/jupitermoons/jupitermoons.go:107-376"]}
{"id": "C152", "title": "The two methods for the Galilean satellites agree", "statement": "With the same light time, the longitudes of E5 and those implied by Positions agree to 0.53, 0.68, 0.71, 0.61 degrees and the radii to 0.0008, 0.0081, 0.026, 0.0131 radii of Jupiter.", "quantifier": "for all dates within three centuries of J2000", "why_tests_cant": "Agreement of two independent theories at all dates; tests compare each with its own book example.", "anchors": ["v3/jupitermoons/jupitermoons.go:24-74", "v3/jupitermoons/jupitermoons.go:107-376"]}
{"id": "C153", "title": "Pluto stays on its orbit", "statement": "At every date the heliocentric radius is between 29.57 and 49.41 AU, the latitude within 17.33 degrees, and the longitude within 29.86 degrees of a mean longitude advancing 144.96 degrees a century.", "quantifier": "for all dates", "why_tests_cant": "43 periodic terms in three incommensurable arguments: extremes over all dates are not reached by sampling, and one wrong coefficient or sign moves a few dates only.", "anchors": ["v3/pluto/pluto.go:20-36", "v3/pluto/pluto.go:71-113"]}
{"id": "C154", "title": "Pluto obeys the law of areas", "statement": "At every date the longitude increases and the area swept per day in the plane of the ecliptic, r^2 cos^2 b dl/dt, stays between 1358 and 1512 times the mean motion, though r^2 varies by a factor 2.7.", "quantifier": "for all dates", "why_tests_cant": "Ties the three tables (longitude, latitude, radius) to one another through a derivative; the tests check one date of the book.", "anchors": ["v3/pluto/pluto.go:20-36", "v3/pluto/pluto.go:71-113"]}
{"id": "C155", "title": "Astrometric place of Pluto", "statement": "The right ascension and declination are the direction from the Earth to the place Pluto had one light time earlier, turned from the ecliptic to the equator of J2000; the light time is between 0.164 and 0.292 days.", "quantifier": "for all dates and all positions of the Sun at 0.98 to 1.02 AU", "why_tests_cant": "Vector identity for all dates; one example is tested.", "anchors": ["v3/pluto/pluto.go:39-54", "v3/elliptic/elliptic.go:126-148"]}
{"id": "C156", "title": "Rise and transit of a planet hold on every day", "statement": "rise.Planet returns a transit at which the local hour angle of the interpolated right ascension vanishes to first order, on every day, including the days on which the right ascension passes from 24h to 0h.", "quantifier": "for all dates, observers and planets", "why_tests_cant": "The failure happens only on the two or three days a year when the right ascension of the planet crosses 24h; tests use one date for Venus.", "anchors": ["v3/rise/rise.go:109-159", "v3/rise/rise.go:172-198"]}
{"id": "C157", "title": "Standard altitude of the Moon", "statement": "Stdh0Lunar of the parallax is the true geocentric altitude at which the upper limb appears at the horizon, and for the parallaxes package moonposition can return it stays within 0.06 degrees of Stdh0LunarMean.", "quantifier": "for all dates within 20 centuries of J2000", "why_tests_cant": "Needs a bound of the parallax over all dates.", "anchors": ["v3/rise/rise.go:31-48"]}
{"id": "C158", "title": "Equinoxes and solstices agree with the longitude of the Sun", "statement": "At the instants returned by solstice.March, June, September and December, solar.ApparentLongitude is 0, 90, 180 and 270 degrees within 0.018 degrees (years 1000 to 3000) or 0.024 degrees (years -1000 to 999).", "quantifier": "for all years from -1000 to 3000", "why_tests_cant": "Two packages with independent constants are compared at 16000 instants; tests use a handful of years, and a wrong digit in a high order coefficient shows only far from the epoch.", "anchors": ["v3/solstice/solstice.go:16-58", "v3/solstice/solstice.go:65-119", "v3/solar/solar.go:37-95"]}
{"id": "C159", "title": "Accurate equinoxes and solstices terminate at the right instant", "statement": "March2, June2, September2 and December2 stop after at most eight corrections, within 0.05 seconds of an instant at which the apparent longitude of the Sun is exactly 0, 90, 180 or 270 degrees, and near the result of the simple functions.", "quantifier": "for all years from -1000 to 3000 and all theories of the Earth whose longitude of the Sun advances by 0.0164 to 0.0180 radians a day and stays within 0.4 radians of solar.ApparentLongitude", "why_tests_cant": "Termination and convergence of an unbounded loop over real functions; tests run a few years.", "anchors": ["v3/solstice/solstice.go:133-202"]}
{"id": "C160", "title": "Short formulas for the Earth against the ellipsoid", "statement": "The convenience formulas of the package agree with its own ellipsoid: Rho is the distance from the centre of a point at sea level (within 1.3e-7 of the equatorial radius), GeocentricLatitudeDifference is the geographic latitude less the geocentric one (within 0.015 arc seconds), one degree of latitude from the radius of curvature is the Distance of two places one degree apart on a meridian (within 10 m), and ApproxLinearDistance of the angle between two places is within 0.6 % of Distance.", "quantifier": "every latitude; every pair of places neither equal nor opposite", "why_tests_cant": "tests compare a handful of latitudes with the book; the agreement is a bound over a continuum", "anchors": ["v3/globe/globe.go:61-64", "v3/globe/globe.go:94-116", "v3/globe/globe.go:139-141"]}
{"id": "C161", "title": "Magnitudes of the planets", "statement": "Every magnitude follows the inverse square law in the distances from the Sun and the Earth; a planet fades as its phase angle grows; and the formulas of 1984 agree with the older ones to about half a magnitude (0.6) at the phase angles which occur.", "quantifier": "all positive distances, all phase angles in the stated ranges", "why_tests_cant": "tests hold one example per planet; monotonicity and agreement are for all phase angles", "anchors": ["v3/illum/illum.go:77-214"]}
{"id": "C162", "title": "Semidiameter of an asteroid", "statement": "Asteroid returns the apparent semidiameter of a body of diameter d km at Δ astronomical units: half the diameter over the distance, in radians.", "quantifier": "all positive diameters and distances", "why_tests_cant": "the unit test repeats the constant of the book; the factor relating it to the geometry is not examined", "anchors": ["v3/semidiameter/semidiameter.go:95-97"]}
{"id": "C163", "title": "Comparison of floats", "statement": "Cmp is a three-way comparison: it returns -1, 0 or 1 exactly as the first value is below, equal to or above the second, and equality in this sense is transitive.", "quantifier": "all pairs of float64 values, with infinities and NaN", "why_tests_cant": "tests use finite numbers only", "anchors": ["v3/base/math.go:68-76"]}
{"id": "C164", "title": "Coordinate conversion methods on values in memory", "statement": "The methods EqToEcl, EclToEq, EqToHz, HzToEq, EqToGal, GalToEq store the converted coordinates in their receiver, return the receiver, and change no other value, in particular not their argument; converting away and back through any receiver restores the position, with an Obliquity made by NewObliquity from any angle.", "quantifier": "all memories, all addresses, all positions off the poles of the two systems", "why_tests_cant": "aliasing of receivers and arguments and exchange of fields show only for particular combinations of pointers and values", "anchors": ["v3/coord/coord.go:37-53", "v3/coord/coord.go:81-84", "v3/coord/coord.go:109-112", "v3/coord/coord.go:145-148", "v3/coord/coord.go:193-196", "v3/coord/coord.go:234-237"]}
{"id": "C165", "title": "Lunar phenomena against the mean arguments of the Moon", "statement": "At the dates of the mean phases, apsides and nodes the arguments used for the periodic terms are the mean arguments of the Moon of package moonposition at that date: at mean new moon, first quarter, full moon, last quarter the mean elongation is 0, 90, 180, 270 degrees; at mean perigee and apogee the mean anomaly is 0 and 180 degrees; at the nodes the mean argument of latitude is 0 and 180 degrees. The mean arguments themselves are differences of the mean longitudes of the Moon, the Sun, the node and the perigee; eclipses use the arguments of the phases.", "quantifier": "all decimal years within 3000 years of 2000", "why_tests_cant": "each package repeats its own polynomials in its own time unit; tests of single dates do not compare them, and a wrong digit in a high order term shows only far from the present", "anchors": ["v3/moonphase/moonphase.go:16-64", "v3/moonphase/moonphase.go:103-131", "v3/apsis/apsis.go:18-60", "v3/apsis/apsis.go:80-91", "v3/moonnode/moonnode.go:19-71", "v3/moonposition/moonposition.go:24-42", "v3/moonposition/moonposition.go:251-262", "v3/eclipse/eclipse.go:15-40"]}
{"id": "C166", "title": "Calendar conversions in double precision", "statement": "Computed in float64, the Julian day of a Gregorian or Julian date differs from the true one by at most 2^-32 day (20 microseconds), and not at all when the day is a multiple of 2^-31; conversion back gives a valid date within 2^-32 day of the first, the same date when the day is a multiple of 2^-31; the day of the week has no rounding error; a time.Time survives the passage through a Julian day within 20.2 microseconds.", "quantifier": "for all dates of the years -4700 to 6700, all float64 days of the month and all instants", "why_tests_cant": "a date just before midnight may be carried to the next day by rounding; tests use fractions of a day which are exact or far from midnight, and compare with a tolerance", "anchors": ["v3/julian/julian.go:30-55", "v3/julian/julian.go:71-98", "v3/julian/julian.go:105-149", "v3/julian/julian.go:156-158"]}
{"id": "C167", "title": "Polynomials and centuries in double precision", "statement": "Horner computed in float64, with fused multiply-add or without, differs from the polynomial with the exact coefficients by at most ((1+2^-53)^(2n) - 1) times the sum of the absolute values of the terms (plus underflow); J2000Century has one relative rounding error; the mean elongation of the Moon computed from a float64 ephemeris day is right to 1e-9 radians.", "quantifier": "for all lists of coefficients and all arguments; all float64 days of -1840 to 6770 for the elongation", "why_tests_cant": "rounding errors depend on every bit of the argument and on whether the compiler fuses the operations, which differs between processors", "anchors": ["v3/base/math.go:27-36", "v3/base/julian.go:54-60", "v3/moonposition/moonposition.go:24-30"]}
{"id": "C168", "title": "Binary search in double precision", "statement": "For every function and all float64 bounds at which it has different signs, BinaryRoot stays within the bounds and returns a zero of the function or an end of an interval whose ends have different signs and whose length is at most 2^-52 of the first interval plus 4.2 units of 2^-53 of the larger bound.", "quantifier": "for all functions (continuous or not) and all finite float64 bounds without overflow of their sum", "why_tests_cant": "the midpoints are rounded: that they never leave the interval and that 52 steps reach the resolution for every function is not a matter of examples", "anchors": ["v3/iterate/iterate.go:55-77"]}
{"id": "C169", "title": "Three point interpolation in double precision", "statement": "Len3.InterpolateN computed in float64 returns the tabulated value exactly at n = 0, and for |n| <= 1 differs from the parabola through the three values by at most 20 times 2^-53 of the largest value.", "quantifier": "for all float64 tables of three values (largest at least 2^-900) and all n in [-1, 1]", "why_tests_cant": "cancellation in the second difference depends on the values; tests compare with a tolerance far above the rounding error", "anchors": ["v3/interp/interp.go:57-78", "v3/interp/interp.go:134-136"]}
{"id": "C170", "title": "Moon phases agree with the Moon's position", "statement": "For every year from 1000 to 3000, at the instants returned by moonphase.New, First, Full and Last, the geocentric longitude of moonposition.Position exceeds the longitude of the Sun of solar.True, less the constant of aberration 0.0057 degree, by 0, 90, 180 and 270 degrees: within 0.055 degree for New and Full, 0.085 degree for First and Last.", "quantifier": "every real year with |year - 2000| <= 1000", "why_tests_cant": "a unit test compares a few dates; a wrong sign of a small term of either series shows only at some dates, and the two packages are never compared", "anchors": ["v3/moonphase/moonphase.go:62-93", "v3/moonphase/moonphase.go:133-277", "v3/moonposition/moonposition.go:44-168", "v3/solar/solar.go:37-57"]}
{"id": "C171", "title": "Node passages agree with the Moon's latitude", "statement": "For every year from 1000 to 3000, at the instants returned by moonnode.Ascending and Descending, the geocentric latitude of moonposition.Position is zero within 0.034 degree, and the mean argument of latitude is within 11 degrees of 0 at the ascending and of 180 degrees at the descending node.", "quantifier": "every real year with |year - 2000| <= 1000", "why_tests_cant": "a unit test compares one date; the two packages hold independent series that are never compared", "anchors": ["v3/moonnode/moonnode.go:19-71", "v3/moonposition/moonposition.go:44-90", "v3/moonposition/moonposition.go:172-248"]}
{"id": "C172", "title": "Phase angle of the Moon from a date", "statement": "moonillum.PhaseAngle3, which takes only a date, agrees with the elongation e of the Moon's longitude (moonposition.Position) from the Sun's (solar.True): it is 180 degrees - e - 0.147 degree sin e within 0.703 degree modulo 360; and the illuminated fraction from it is within 0.0092 of the one from PhaseAngleEcl with the positions of the Moon and the Sun.", "quantifier": "every date with |T| <= 10 centuries from 2000", "why_tests_cant": "the unit test is one date; a term with a wrong sign or argument shows only at other dates, and the packages are never compared", "anchors": ["v3/moonillum/moonillum.go:36-107", "v3/base/illum.go", "v3/moonposition/moonposition.go:44-90", "v3/solar/solar.go:37-91"]}
{"id": "C173", "title": "Sidereal time and the Sun", "statement": "sidereal.Mean less the hour angle of mean midnight is the mean longitude of the Sun of solar.True, within 0.0068 degree: sidereal time gains one day per year on the Sun. Apparent sidereal time less the right ascension of the Sun, the hour angle of the true Sun, is the mean time from noon plus the equation of time of eqtime.E, within 0.001 degree, whatever the theory of the Earth.", "quantifier": "every Julian day with |T| <= 2 centuries from 2000; every theory of the Earth", "why_tests_cant": "three packages with independent polynomials; their tests hold two or three dates each and never compare them", "anchors": ["v3/sidereal/sidereal.go:21-80", "v3/eqtime/eqtime.go:24-52", "v3/solar/solar.go:37-46", "v3/solar/solar.go:187-204"]}
{"id": "C174", "title": "Equation of the centre and Kepler's equation", "statement": "The anomaly of the Sun given by solar.True, from a series in the mean anomaly, is the true anomaly kepler.True of a solution of Kepler's equation with the mean anomaly and eccentricity of package solar, within 2.8e-6 radian (0.58 arc second); and solar.Radius is kepler.Radius of that solution within 5e-8 astronomical units.", "quantifier": "every T with |T| <= 10 centuries from 2000 and every solution of Kepler's equation other than an odd multiple of 180 degrees", "why_tests_cant": "solar and kepler are tested separately at a few values; the coefficients of the series are never compared with the eccentricity", "anchors": ["v3/solar/solar.go:37-77", "v3/kepler/kepler.go:17-30"]}
{"id": "C175", "title": "Perihelion dates against the mean anomalies of the planets", "statement": "At the dates returned by perihelion.Perihelion the mean anomaly of the planet (planetelements.Mean, longitude less longitude of the perihelion) is 0 degrees, at those of Aphelion 180 degrees, within 0.007 degree for Mercury, Venus and Mars to Neptune; for the barycentre of the Earth and the Moon the mean anomaly of package solar is 0 or 180 degrees within 0.00007 degree, for the Earth itself within 1.53 degrees.", "quantifier": "every real year from 1000 to 3000, every planet", "why_tests_cant": "the tests hold one or two events of three planets; the two tables are never compared", "anchors": ["v3/perihelion/perihelion.go:50-124", "v3/planetelements/planetelements.go:46-131", "v3/solar/solar.go:54-58"]}
{"id": "C176", "title": "Refraction formulas undo each other", "statement": "Saemundsson, from the true altitude, is consistent with Bennett, from the apparent altitude, within 4 arc seconds from the horizon to the zenith, as documented: Bennett at the altitude h + Saemundsson(h) is Saemundsson(h) within 4 arc seconds. Gt15True at h + Gt15Apparent(h) is Gt15Apparent(h) within 0.03 arc second above 15 degrees.", "quantifier": "every altitude from 0 to 90 degrees, from 15 to 90 degrees", "why_tests_cant": "the documented figure is a maximum over a continuum of altitudes; tests hold one altitude per function and never compose them", "anchors": ["v3/refraction/refract.go:16-86"]}
{"id": "C177", "title": "The ways to compute aberration agree", "statement": "From 1900 to 2100 the displacement of a star by AberrationRonVondrak and that by the formulas of Aberration with the Sun's longitude, the eccentricity and the longitude of perihelion referred to the equinox of 2000 agree within 0.06 arc second in each of the two directions on the sky; Aberration itself, which refers to the equinox of the date, agrees with AberrationRonVondrak within 0.06 arc second plus 0.52 arc second a century from 2000. AberrationRonVondrak displaces a star on the ecliptic along the ecliptic, within 0.0014 arc second plus 0.0053 a century. EclipticAberration applied to the Sun gives the aberration that package solar applies to the Sun, within 0.0004 arc second.", "quantifier": "all dates within one century of 2000 (ten for the last two parts) and all stars not at a celestial pole", "why_tests_cant": "The tests check one star (theta Persei) on one date. A wrong sign or digit in one of the 36 rows of the table, or a wrong perihelion, changes results elsewhere by more than the stated amounts.", "anchors": ["v3/apparent/apparent.go:34-130", "v3/apparent/apparent.go:132-291", "v3/solar/solar.go:37-77", "v3/solar/solar.go:204-207"]}
{"id": "C178", "title": "Precession undoes itself and may go through an intermediate epoch", "statement": "Precessing equatorial coordinates from one epoch to another and back returns the start exactly (right ascension reduced to 0–24h), for every star off the poles and all epochs. For epochs between 1800 and 2200, ecliptic precession there and back returns every direction within 0.00025″, and precession in two steps through 2000 agrees with the direct one within 0.0021″ in equatorial and 0.0001″ in ecliptic coordinates, for every star.", "quantifier": "All stars; all epochs (equatorial, there and back), all pairs of epochs within 200 years of 2000 (the rest).", "why_tests_cant": "Tests precess a few stars between a few epochs; the two-parameter families of angles are cubic polynomials whose mutual consistency is a statement over all epoch pairs and all directions.", "anchors": ["v3/precess/precess.go:93-170", "v3/precess/precess.go:190-263"]}
{"id": "C179", "title": "Equatorial and ecliptic precession are the same motion", "statement": "For epochs between 1800 and 2200 and every star, precessing the equatorial coordinates gives the same direction, within 0.003″, as converting to the ecliptic with the mean obliquity of the first epoch, precessing the ecliptic coordinates, and converting back with the mean obliquity of the second epoch.", "quantifier": "All stars with declination and precessed ecliptic latitude off the poles; all pairs of epochs within 200 years of 2000.", "why_tests_cant": "Three packages with independent tables of coefficients (ζ, z, θ; η, Π, p; ε) have to fit; a test at sample epochs cannot show the agreement over all epochs and directions.", "anchors": ["v3/precess/precess.go:93-170", "v3/precess/precess.go:190-263", "v3/coord/coord.go:66-102", "v3/nutation/nutation.go:69-76", "v3/base/julian.go:32-34"]}
{"id": "C180", "title": "Approximate annual precession is the rate of precession between the epochs", "statement": "For epochs between 1800 and 2200, ApproxAnnualPrecession returns, within 0.0002″ per year on the sky, the rate at which Precess moves the star at some epoch between the two given.", "quantifier": "All stars off the poles; all pairs of epochs.", "why_tests_cant": "The rate is a derivative; tests compare a single star at a single pair of epochs which starts at 2000, where the error of the interval does not show.", "anchors": ["v3/precess/precess.go:52-73", "v3/precess/precess.go:93-170"]}
{"id": "C181", "title": "Axes of Saturn's ring, Jupiter and the Sun stay fixed in space", "statement": "For dates between 1800 and 2200 the planes used by saturnring, jupiter and solardisk follow the precession of package precess: the sine of the elevation of a direction above the ring (above Jupiter's equator), computed at one date, equals the one computed at another date for the direction precessed to it, within 0.025″ for the ring and 0.025° for Jupiter; the ring's plane carried to B1950 is within 0.15″ the plane of package saturnmoons; the heliographic latitude B0 is the same for precessed longitudes within 0.0000105 in the sine.", "quantifier": "All directions; all pairs of dates from 1800 to 2200.", "why_tests_cant": "The elements of the planes are polynomials in time given in each package separately; agreement with precession for all pairs of dates cannot be sampled.", "anchors": ["v3/saturnring/saturnring.go:58-63", "v3/saturnmoons/saturnmoons.go:140-145", "v3/jupiter/jupiter.go:26-36", "v3/solardisk/solardisk.go:23-46", "v3/precess/precess.go:93-170", "v3/precess/precess.go:190-263"]}
{"id": "C182", "title": "Eclipses fit the phases and the position of the Moon", "statement": "Whenever Solar reports an eclipse for a year from 1000 to 3000, the returned least distance gamma of the shadow axis from the Earth's centre equals, within 0.043 Earth radii, 1.0074 times the distance of the Moon (in Earth radii) times the sine of its latitude from moonposition.Position at the returned time, and that time is within 0.027 day of moonphase.New; likewise for Lunar with 1.0048 and moonphase.Full.", "quantifier": "All years from 1000 to 3000 for which an eclipse is reported.", "why_tests_cant": "Tests check single eclipses; that two series of about 30 periodic terms agree with the 120 terms of the lunar theory at every eclipse, sign included, is a statement about all of them.", "anchors": ["v3/eclipse/eclipse.go:15-75", "v3/eclipse/eclipse.go:119-220", "v3/moonphase/moonphase.go:81-170", "v3/moonposition/moonposition.go:44-230"]}
{"id": "C183", "title": "Dates of phases, apsides and nodes are right in double precision", "statement": "For every year from -2000 to 6000 the value that moonphase.New, First, Full and Last return in double precision, whatever the order in which a compiler fuses multiplications and additions, is within 3e-9 day of the value of the same formulas in exact arithmetic for the lunation nearest the given date (the mean phases within 2e-9, apsis.Perigee and Apogee within 5e-9, moonnode.Ascending and Descending within 1.2e-8 day, the parallaxes within 5e-8 arc second); the lunation chosen is the nearest one unless the date is within 1e-10 of the middle between two.", "quantifier": "All float64 years from -2000 to 6000 and all sine and cosine functions with an absolute error of at most 1e-15.", "why_tests_cant": "A test compares single dates with a few printed decimals; no test bounds the accumulated rounding of dozens of operations on arguments of thousands of radians for every date, platform and use of fused operations.", "anchors": ["v3/moonphase/moonphase.go:17-235", "v3/apsis/apsis.go:14-270", "v3/moonnode/moonnode.go:14-71"]}
{"id": "C184", "title": "Position of the Moon and nutation are right in double precision", "statement": "Within forty centuries of J2000 the quantities computed in double precision differ from those of the same formulas in exact arithmetic by at most: 2.3e-10 radian for the mean longitude of the Moon before reduction, 5e-9 degree for the sum of the periodic terms in longitude and for the latitude, 1.5 cm for the distance; 3.2e-9 arc second for the nutation in longitude and obliquity, 2.5e-10 for ApproxNutation, 4e-11 for both mean obliquities.", "quantifier": "All float64 dates with |jde - 2451545| <= 1461000, all fusings of multiplication and addition, all sine and cosine functions with an absolute error of at most 1e-15.", "why_tests_cant": "Tests compare one or two dates to the decimals printed in the book.", "anchors": ["v3/moonposition/moonposition.go:27-110", "v3/nutation/nutation.go:22-140"]}
{"id": "C185", "title": "Eclipses are classified right in double precision", "statement": "For every year from -2000 to 6000, unless the date is within 1e-10 lunation of the middle between two syzygies or one of the comparisons made is within 1e-7 (lunar) or 1e-8 (solar) of equality, Solar and Lunar in double precision report the type of eclipse which the formulas give in exact arithmetic; the time of greatest eclipse is within 1.1e-8 day, gamma within 2e-9, the radii of the shadows within 1e-11 Earth radii, the magnitude within 6e-9, and a semiduration of d hours within 4e-8/d hours. In particular no square root of a negative number is taken for a semiduration.", "quantifier": "All float64 years from -2000 to 6000 but for the stated ties, all fusings of multiplication and addition, all sine and cosine functions with an absolute error of at most 1e-15.", "why_tests_cant": "Tests check single eclipses; that rounding never flips a type outside an explicit margin is a statement about all dates.", "anchors": ["v3/eclipse/eclipse.go:15-220"]}
{"id": "C186", "title": "The solvers of Kepler's equation hold in double precision", "statement": "In double precision, for eccentricities from 0 to 1: Kepler3 returns for every mean anomaly reduced to one turn a number that satisfies Kepler's equation for the anomaly (or the anomaly less one turn) to 8e-14, lies within 8e-14/(1-e) of the exact solution and within 1e-13 of [-pi, pi]; what Kepler1 returns without error satisfies the equation to e*10^-places plus (|M|+13)*1.2e-16, and what Kepler2 and Kepler2b return (e < 1) to e*10^(-2*places) plus (|M|+10)*4.8e-16; Kepler1 never fails for e <= 0.6, |M| <= 10 and 1 to 13 places. An iteration of Kepler2 or Kepler2b never goes away from the side on which the solution lies while the equation is not satisfied to (|M|+12)*1.2e-16, and one of Kepler2b never by more than half a radian.", "quantifier": "All float64 eccentricities and mean anomalies in the stated ranges (|M| <= 2^28 for the iterations), all fusings of multiplication and addition, all sine and cosine functions with an absolute error of at most 1e-15 (and, for Newton's method, values not above 1).", "why_tests_cant": "Tests check a few pairs of eccentricity and anomaly; whether rounding can derail the bisection or make the iteration stall short of the precision asked for is a question about all of them.", "anchors": ["v3/kepler/kepler.go:34-147", "v3/iterate/iterate.go:20-35"]}
{"id": "C187", "title": "Equinoxes, seasons, ΔT polynomials and sidereal time hold in double precision", "statement": "In double precision: March, June, September and December return for every year from -1000 to 3000 the time their formulas give to 1.5e-9 day, so that the seasons come in order and last 87.9 to 95.1 days; the polynomials for Delta T give their exact values to 3e-10 second for the years -4000 to 8000 (PolyBefore948, Poly948to1600, PolyAfter2000), and to 4e-8 second or better within 37000 days of 1900 for those in the date; mean sidereal time, before the reduction to one day, is the value of the formula to 4e-7 second for every float64 date from 2^20 to 2^22-1, except in the half day before JD 2097152 where adding .5 loses a bit and the error may reach 2.2e-5 second; the calendar day is never mistaken.", "quantifier": "All years and float64 dates in the stated ranges, all fusings of multiplication and addition, all cosine functions with an absolute error of at most 1e-15.", "why_tests_cant": "Tests check single dates; the loss of a bit at one half day out of thousands of years is not met by them.", "anchors": ["v3/solstice/solstice.go:60-119", "v3/deltat/deltat.go:81-147", "v3/sidereal/sidereal.go:21-58"]}
{"id": "C188", "title": "Planetary phenomena in double precision", "statement": "In double precision, for every year from -2000 to 6000, MercuryInfConj, MercurySupConj, VenusInfConj, MarsOpp, MarsStation2, JupiterOpp, SaturnOpp, SaturnConj, UranusOpp, NeptuneOpp and the times of MercuryEastElongation and MercuryWestElongation return a time within 3e-9 day of an event of their formulas; it is the event which the formulas give for that year, unless the year is within 1e-10 period of the middle between two events, when it may be the other of the two; the elongations are right to 2e-10 degree.", "quantifier": "All years in the range, all fusings of multiplication and addition, all sine and cosine functions with an absolute error of at most 1e-15, all PMod which return a remainder modulo 360 in [0,360] right to 1e-13.", "why_tests_cant": "Tests check single years; between two events the rounding decides which one is returned, and the anomaly before reduction grows to 1.4 million degrees.", "anchors": ["v3/planetary/planetary.go:17-147", "v3/planetary/planetary.go:150-460"]}
{"id": "C189", "title": "Perihelia, aphelia and extreme declinations in double precision", "statement": "In double precision, for every year from -2000 to 6000: Perihelion and Aphelion return for every planet and the barycentre a time within 5e-9 day of an event of their formulas, and North and South of moonmaxdec a time within 2.2e-8 day and a declination within 3e-12 radian; it is the event which the formulas give for that year, unless the year is within 1e-10 period of the middle between two events, when it may be the other of the two.", "quantifier": "All years in the range, all planet numbers, all fusings of multiplication and addition, all sine and cosine functions with an absolute error of at most 1e-15.", "why_tests_cant": "Tests check single years; the sums of 44 terms at the size of a Julian date lose digits which only a bound on every rounding can count.", "anchors": ["v3/perihelion/perihelion.go:46-124", "v3/moonmaxdec/moonmaxdec.go:14-326"]}
{"id": "C190", "title": "Angular separations in double precision", "statement": "For coordinates of up to 8 radians, computed in binary64: SepPauwels returns the true angular separation of the two directions to 4e-14 radian wherever they are; Sep returns it to 1e-11 radian from 10 arcminutes to 180 degrees less 10 arcminutes and evaluates its small-angle formula to 6e-14 radian below; SepHav, documented as superior to Sep, returns it to 2e-11 radian in the same middle range and to a like relative accuracy for small separations.", "quantifier": "all coordinates of up to 8 radians, all roundings and fusings allowed, math functions within stated errors", "why_tests_cant": "The loss of digits depends on where the bodies are and how close; tests compare one well separated pair of stars to a few digits.", "anchors": ["v3/angle/angle.go:24-37", "v3/angle/angle.go:119-141", "v3/base/math.go:20-23"]}
{"id": "C191", "title": "Latitude, declination and altitude from the conversions of coordinates in double precision", "statement": "Computed in binary64, the latitude of EqToEcl, the declinations of EclToEq and HzToEq and the altitude of EqToHz are numbers for every position, and equal 90 degrees less the distance of the body from the pole of the new system (for the altitude, from the zenith) to 2e-11 radian except within 10 arcminutes of the poles of that system, and to 3e-7 radian everywhere.", "quantifier": "all angles of up to 8 radians, all roundings and fusings allowed, math functions within stated errors", "why_tests_cant": "Whether the sum of two products passes 1 depends on the last bits of four sines and cosines; the tests convert a few bodies far from the poles.", "anchors": ["v3/coord/coord.go:66-72", "v3/coord/coord.go:96-102", "v3/coord/coord.go:130-138", "v3/coord/coord.go:213-221"]}
{"id": "C192", "title": "Longitude, right ascension and azimuth from the conversions of coordinates in double precision", "statement": "Computed in binary64 for a body at least 9 arcminutes from the poles of the old system, the longitude of EqToEcl, the right ascensions of EclToEq and HzToEq and the azimuth of EqToHz are those of the true rotation, up to whole turns; the error along the parallel of the new system is at most 1.1e-13 radian over the cosine of the old latitude, whatever the position in the new system (its poles and the cut of the arc tangent included).", "quantifier": "all angles of up to 8 radians with the cosine of the old latitude at least 1/400, all roundings and fusings allowed, math functions within stated errors", "why_tests_cant": "The tangent and the arc tangent lose digits near the poles and jump by a whole turn; the tests convert a few bodies far from both.", "anchors": ["v3/coord/coord.go:66-72", "v3/coord/coord.go:96-102", "v3/coord/coord.go:130-138", "v3/coord/coord.go:213-221"]}
{"id": "C193", "title": "Rigorous precession in double precision", "statement": "For epochs from -6000 to 6000 and every position, the equatorial and the ecliptic precessor, computed in binary64, always return numbers: the declination or latitude of the direction turned by the angles of the published polynomials to 2e-11 radian, near the poles too, and the right ascension or longitude to 1e-13 radian along the parallel, up to whole turns.", "quantifier": "all epochs from -6000 to 6000, all coordinates of up to 8 radians, all roundings and fusings allowed, math functions within stated errors", "why_tests_cant": "The sine of the declination may round to more than 1 and its arc sine loses half the digits near a pole; tests precess one or two stars, not every star across the switch of formulas 10 arcminutes from the pole.", "anchors": ["v3/precess/precess.go:119-171", "v3/precess/precess.go:190-263"]}
{"id": "C194", "title": "Reduction of orbital elements in double precision", "statement": "Computed in binary64, the reduction of orbital elements between two equinoxes from -6000 to 6000, and that from B1950 in FK4 to J2000 in FK5, give the elements of the orbit turned as a whole: the inclination to 2e-11 radian when the true one is between 10 arcminutes and 180 degrees less 10 arcminutes, and to 3e-7 radian whenever it is a number; node and argument of perihelion to 1e-13 radian over the sine of the true inclination, up to whole turns.", "quantifier": "all epochs in the range, all elements of up to 8 radians, all roundings and fusings allowed, math functions within stated errors", "why_tests_cant": "Orbits close to the new ecliptic lose digits of all three elements; the tests reduce two comets with large inclinations.", "anchors": ["v3/precess/precess.go:266-287", "v3/elementequinox/elementequinox.go:45-64"]}
{"id": "C195", "title": "The Sun and Pluto in double precision", "statement": "Within forty centuries of J2000, computed in binary64: the true longitude and true anomaly of the Sun equal the values of their formulas to 3.2e-11 radian and the apparent longitude to 3.4e-11 radian, up to whole turns; the Sun's distance is right to 1.2e-12 AU; Pluto's heliocentric longitude and latitude are right to 2.2e-12 radian and its distance to 1.8e-11 AU.", "quantifier": "all centuries from -40 to 40 and all dates in that range, all roundings and fusings allowed, sine and cosine within 1e-15, conversion from degrees within 5e-16 relative, reduction to one turn within 2e-12", "why_tests_cant": "The arguments reach four thousand turns before the sine is taken, so rounding errors are magnified; tests check one date for each function to six digits.", "anchors": ["v3/solar/solar.go:29-95", "v3/pluto/pluto.go:16-36"]}
{"id": "C196", "title": "Heliocentric positions by VSOP87 in double precision", "statement": "For dates within 1460000 days of J2000 (about four thousand years) and any set of coefficients with at most 2047 terms in a series, phases of at most 7 and rates of at most 2^26, Position2000 as computed in double precision returns a latitude and a radius which differ from the sums of the theory (powers of the time in Julian millennia times the series a cos(b + c t)) by at most the sum over the powers x of 4^x times (4e-16 times the amplitudes weighted by their position in the list, plus 1e-14 times the amplitudes, plus 6e-15 times amplitude times rate), plus 1e-20; and a longitude with the same bound times 1.01 plus 1e-16 of the amplitudes plus 1.1e-15, up to whole turns. Amplitudes are weighted by position because the last terms, which are the small ones, are added first.", "quantifier": "all coefficients and dates in the stated range; any cosine with error 1e-15; fused or separate multiplication and addition", "why_tests_cant": "a test compares a few dates with published values to 1e-7 or so and cannot bound the accumulated rounding error for all dates and tables", "anchors": ["v3/planetposition/planetposition.go:198-217", "v3/base/math.go:20-29", "v3/base/julian.go:52-60"]}
{"id": "C197", "title": "Straight line and function fit in double precision", "statement": "For at most 1000 points with coordinates up to 2^40, fit.Linear in binary64 returns two finite coefficients within 3/D*(EA + |a| E) + 1.2e-16 |a| + 2^-500 of those of exact arithmetic (the same with EB and b), where D = n sum(x^2) - (sum x)^2 and E, EA, EB = (2n+12)*1.2e-16 times the same expressions with all terms taken positive, plus 2^-375, provided 2E <= D. fit.Func1 returns a coefficient within (n+4)*7.5e-16*sum|y f|/sum(f^2) + 2^-180 of the exact one if sum(f^2) >= 2^-300. The condition on D is needed: for three observations 1/64 day apart with Julian dates as abscissae Linear divides by zero.", "quantifier": "all lists of points in the stated range, all roundings and fusings allowed", "why_tests_cant": "The loss of digits depends on the data; tests fit two or three lists of small numbers.", "anchors": ["v3/fit/fit.go:9-29", "v3/fit/fit.go:107-121"]}
{"id": "C198", "title": "Correlation coefficient stays in [-1, 1] in double precision", "statement": "fit.CorrelationCoefficient computed in binary64 lies in [-1, 1], so that for instance its arc cosine exists.", "quantifier": "all lists of points with spread in both coordinates", "why_tests_cant": "Tests compare two coefficients to three digits; a value above 1 by one unit in the last place, which occurs for (0,0), (1,1), (2,2), is not seen by them.", "anchors": ["v3/fit/fit.go:31-46"]}
{"id": "C199", "title": "Lagrange interpolation in double precision", "statement": "interp.Lagrange in binary64 returns exactly the tabular value when x is one of the abscissae of the table, for tables of any length with distinct abscissae. Elsewhere, for at most 11 points with abscissae up to 2^40 which differ from each other and from x by 2^-40 or more, the value differs from that of the polynomial of degree below n through the points by at most 10 n 2^-53 times the sum of the absolute values of the terms of Lagrange's formula, plus 2^-450.", "quantifier": "all tables, all arguments in the stated range, fused or not", "why_tests_cant": "Tests evaluate two tables at one or two arguments and print a few digits.", "anchors": ["v3/interp/interp.go:408-429"]}
{"id": "C200", "title": "Phase angle and illuminated fraction in double precision", "statement": "For any three distances r, D, R that are sides of a triangle with the angle i at the planet, illum.PhaseAngle returns an angle (not NaN) close to i and illum.Fraction a number in [0, 1] close to (1 + cos i)/2.", "quantifier": "all distances of at least 2^-20, all roundings and fusings allowed", "why_tests_cant": "Tests evaluate one position of Venus. For positions in line with Sun and Earth the rounded quotient can exceed 1, so that the arc cosine is NaN; tests do not look there.", "anchors": ["v3/illum/illum.go:19-25", "v3/illum/illum.go:27-35"]}
{"id": "C201", "title": "Mean elements of the planets in double precision", "statement": "For dates within 4000 years of J2000 planetelements.Mean, Inc and Node in binary64 panic exactly when they do in exact arithmetic, and otherwise give the longitude to 1.4e-10 radians (up to whole turns), the semimajor axis to 7e-15 AU, the eccentricity to 5e-17, and inclination, node and perihelion to 6e-15 radians.", "quantifier": "all planets, all dates in the range, all roundings and fusings allowed", "why_tests_cant": "Tests evaluate one date for one planet to a few digits.", "anchors": ["v3/planetelements/planetelements.go:41-147"]}
{"id": "C202", "title": "Motion in a parabola in double precision", "statement": "parabolic.AnomalyDistance in binary64 gives a finite distance for every date, with the true anomaly and the distance those of the parabola up to an error that does not grow with the time from perihelion.", "quantifier": "all perihelion distances between 2^-40 and 2^40 AU, all dates up to 2^40 days from perihelion, all roundings and fusings allowed, every cube root and arctangent of the stated accuracy", "why_tests_cant": "Tests evaluate one comet after perihelion, where the cancellation in G + sqrt(G^2+1) does not show.", "anchors": ["v3/parabolic/parabolic.go:20-32"]}
{"id": "C203", "title": "The length of an orbit in double precision", "statement": "elliptic.Length4 returns for every argument in double precision arithmetic, and the result is the length of the ellipse to 1 part in 10^7 for all eccentricities below 1, to 22 units of rounding for each round of the loop and 111 more up to eccentricity 0.99.", "quantifier": "for all doubles, in whatever way products and sums are fused", "why_tests_cant": "termination of a loop that compares two doubles for equality, and error propagation through more than 100000 rounds", "anchors": ["v3/elliptic/elliptic.go:234-251"]}
{"id": "C204", "title": "Speeds on an orbit in double precision", "statement": "In double precision arithmetic elliptic.Velocity is a number for every distance up to twice the semimajor axis, without exception near the end of the range, with an error given by the cancellation of the two fractions; VPerihelion and VAphelion are accurate to 8 units of rounding.", "quantifier": "for all eccentricities below 1, semimajor axes from 2^-100 to 2^100, all distances", "why_tests_cant": "the difference under the root vanishes at the end of the range and rounding could make it negative for single doubles", "anchors": ["v3/elliptic/elliptic.go:155-175"]}
{"id": "C205", "title": "The smallest circle in double precision", "statement": "From the three separations, circle.Smallest computes a finite diameter in double precision arithmetic, within a relative 1e-6 of the diameter of the smallest circle, also where rounding decides between the two types or one separation is tiny.", "quantifier": "for all separations, not all below 2^-150 radians, in whatever way products and sums are fused", "why_tests_cant": "the difference of nearly equal sides under the root, guarded only by a comparison of rounded squares", "anchors": ["v3/circle/circle.go:31-43"]}
{"id": "C206", "title": "The approximate lengths of an orbit in double precision", "statement": "elliptic.Length1 and Length2 in double precision arithmetic are the exact values of their formulas to 1 part in 10^13.", "quantifier": "for all eccentricities from 0 to 0.99, all semimajor axes from 2^-400, in whatever way products and sums are fused", "why_tests_cant": "error propagation through differences of means over a continuum of orbits", "anchors": ["v3/elliptic/elliptic.go:183-202"]}
{"id": "C207", "title": "Combined magnitudes in double precision", "statement": "stellar.Sum and SumN in double precision arithmetic give the magnitude of the combined light: Sum to 3e-13, SumN of n stars to 2e-13 + 6n/2^53, so the order of the stars does not matter beyond twice that; Difference(Ratio(m1, m2)) is m2 - m1 to 3e-13.", "quantifier": "for all magnitudes from -50 to 50 and any number of stars up to 2^20, in whatever way products and sums are fused", "why_tests_cant": "error propagation through powers, a running sum and a logarithm over a continuum of magnitudes and lists of any length", "anchors": ["v3/stellar/stellar.go:14-40"]}
{"id": "C208", "title": "Zeros and extrema of a table in double precision", "statement": "Len3.Zero in double precision arithmetic, when it reports success, returns (up to 8 units of rounding of x) a place inside the table where the parabola through the three tabulated values is zero up to 140 units of rounding of the largest value, for either strategy. Len3.Extremum returns a place where its derivative is zero and the value there, up to 16 units.", "quantifier": "for all tables of three values (not all below 2^-400, for the extremum 2^-100), in whatever way products and sums are fused", "why_tests_cant": "the iteration is stopped by a test of rounded differences; what that says about the polynomial must be shown for a continuum of tables", "anchors": ["v3/interp/interp.go:153-219"]}
