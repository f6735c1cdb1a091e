# Design

Machine-checked Lean 4 model of `soniakeys/meeus` (`/repo/v3`) and proofs of the properties in `properties.jsonl`.
`MANIFEST.json` maps every property to its theorems. The tables at the end of this file are generated from the sources.

## Directories

| directory | contents |
|---|---|
| `lean/Verif/Go` | semantics of the Go primitives used by the code |
| `lean/Verif/Model` | the model, function by function; every definition cites file and lines |
| `lean/Verif/Spec` | specifications which do not refer to the model: day counts, calendars, unit vectors, rotations, orbits, least squares, tables |
| `lean/Verif/Lemmas` | mathematics shared by proofs |
| `lean/Verif/Props` | the property theorems `Cnn_…`, each with a concrete case meeting its hypotheses |
| `seeded/LOG.jsonl` | edits made to the model to see which theorems fail |

## Semantics

| layer | what it is | Lean |
|---|---|---|
| integers | `int`, `int64` as unbounded `Int`; `/` is `Int.tdiv`, `%` is `Int.tmod` (truncation toward zero). Wrap-around of 64 bits only for `FloorDiv64`. | `Go/Int` |
| floats, ideal | `float64` as exact real numbers (any ordered field for rational code). `math.Sin` … are Mathlib's functions, `math.Atan2(y, x)` is `Complex.arg (x + i y)`. | `Go/Real`, `Go/Angle` |
| floats, extended | finite real, ±Inf, NaN, with the IEEE rules for comparison and division; no rounding, zero has no sign. Used where NaN or Inf decides control flow. | `Go/Ext`, `Go/ExtMath` |
| floats, IEEE binary64 | real numbers with every operation followed by `fl`, rounding to nearest even at 53 bits with gradual underflow; no overflow, infinities or signed zero. Used for C166 to C169. | `Go/Float64` |
| floats, abstract | a class of operations, for code which must give the same result in every arithmetic | `Go/Ops` |
| errors, panics, divergence | `Option`, outcome types, fuel for loops without a static bound | per package |
| pointers | memory as functions from addresses to structs, statements change the memory | `Model/Precess`, `Model/CoordMethods` |
| calls of other packages | the modelled function, or a parameter where the callee is a table from a file (VSOP87) or any function | per package |

Consequences of the idealisation: except in C166 to C169, rounding errors of `float64`, overflow, and loss of accuracy for large arguments are outside the theorems. Where a theorem speaks of a
bound of an error, the error is that of the formula. Loops which stop on equality of two floats are modelled with fuel or with extended floats as noted beside the definition.

## Trusted base

* The kernel of Lean 4.33.0. Axioms: at most `propext`, `Classical.choice`, `Quot.sound` (table at the end). No `sorry`, no own axioms, no `native_decide`.
* Mathlib's definitions of `ℝ`, `sin`, `cos`, `arcsin`, `arccos`, `arctan`, `Complex.arg`, `Real.sqrt`, `exp`, `log`, integrals, derivatives, inner products.
* `github.com/soniakeys/unit` is not in `/repo`; its documented behaviour is assumed: `PMod(x, y)` is the representative of `x` modulo `y` in `[0, y)`;
  `Angle.Mod1`, `RAFromRad` reduce modulo 2π, `Time.Mod1` modulo 86400 s; `Sincos`, `Tan` are those of package math; conversions of units are linear.
* The translation from Go by hand. Guards against errors of translation: the citations, the numeric examples of the book checked where the theorem gives a value, and the seeded edits.

## How properties are stated

A property theorem relates the modelled functions to a definition in `Spec` or to mathematics (a direction in space, a root of an equation, an integral, a count of days), or to another
function of the library computing the same quantity independently. When the code violates the statement, the violation is proved with a concrete witness (`_violation`) and the largest
part found to hold is kept (`_partial`).

## Plan per property

One line each: what is modelled is the file under `Verif/Model` (its definitions cite the Go lines), the proof is in `Verif/Props`. "partial" means that the code violates the statement as given: the violation is a theorem (`_violation`) and the largest part found to hold is proved (`_partial`); the note in `MANIFEST.json` says what is false or missing.

| id | property | model | proof | method | status |
|---|---|---|---|---|---|
| C01 | FloorDiv is the mathematical floor | BaseInt | BaseInt | integer layer; Euclidean division lemmas, 64-bit wrap-around | proved |
| C02 | Gregorian calendar to JD is the day count | Julian, Julian64 | Julian | integer layer; day counts defined by recursion in Spec/Calendar; linear integer arithmetic and case analysis on months | proved |
| C03 | Julian calendar to JD is the day count | Julian, Julian64 | Julian | integer layer; day counts defined by recursion in Spec/Calendar; linear integer arithmetic and case analysis on months | proved |
| C04 | JD to calendar inverts the Gregorian conversion | Julian, Julian64 | Julian | integer layer; day counts defined by recursion in Spec/Calendar; linear integer arithmetic and case analysis on months | proved |
| C05 | JD to calendar inverts the Julian conversion up to the reform | Julian, Julian64 | Julian | integer layer; day counts defined by recursion in Spec/Calendar; linear integer arithmetic and case analysis on months | partial |
| C06 | Day of week advances by one every day | Julian, Julian64 | Julian | integer layer; day counts defined by recursion in Spec/Calendar; linear integer arithmetic and case analysis on months | partial |
| C07 | Leap year predicates agree with year lengths | Julian, Julian64 | Julian | integer layer; day counts defined by recursion in Spec/Calendar; linear integer arithmetic and case analysis on months | proved |
| C08 | Day of year is the offset from January 0 | Julian | Julian | integer layer; day counts defined by recursion in Spec/Calendar; linear integer arithmetic and case analysis on months | proved |
| C09 | Gregorian Easter is the first Sunday after the ecclesiastical full moon | Easter | Easter | integer layer; Clavius tables and the lunisolar rule in Spec/Easter; congruences, the remaining residues closed by finite case analysis inside a proof for all years | proved |
| C10 | Julian Easter is the first Sunday after the ecclesiastical full moon | Easter | Easter | integer layer; Clavius tables and the lunisolar rule in Spec/Easter; congruences, the remaining residues closed by finite case analysis inside a proof for all years | proved |
| C11 | Easter cycles | Easter | Easter | integer layer; Clavius tables and the lunisolar rule in Spec/Easter; congruences, the remaining residues closed by finite case analysis inside a proof for all years | proved |
| C12 | Jewish calendar weekday postponements | Jm | JmJewish | integer layer; molad arithmetic in Spec/Hebrew; Gauss formula reduced to inequalities between residues | proved |
| C13 | Jewish year lengths | Jm | JmJewish | integer layer; molad arithmetic in Spec/Hebrew; Gauss formula reduced to inequalities between residues | partial |
| C14 | Moslem to Julian conversion is the tabular calendar | Jm | JmMoslem | integer layer; tabular calendar in Spec/Islamic; induction on cycles | partial |
| C15 | Moslem leap years | Jm | JmMoslem | integer layer; tabular calendar in Spec/Islamic; induction on cycles | proved |
| C16 | Julian to Moslem inverts Moslem to Julian | Jm | JmMoslem | integer layer; tabular calendar in Spec/Islamic; induction on cycles | partial |
| C17 | Julian/Gregorian date conversion | Jm | JmMoslem | integer layer; tabular calendar in Spec/Islamic; induction on cycles | proved |
| C18 | Horner evaluates the polynomial | Interp, Moon, Precess, Round64, Vsop64 | Interp | ordered field; divided differences, uniqueness of the interpolating polynomial | proved |
| C19 | Lagrange interpolation | Interp, Lagrange64, Moon, Precess, Round64, Vsop64 | Lagrange | ordered field; Lagrange basis by induction on the table | proved |
| C20 | Three point interpolation is the unique quadratic | Conjunction, Interp, Round64, Zero64 | Interp | ordered field; divided differences, uniqueness of the interpolating polynomial | proved |
| C21 | Len3 extremum is the extremum | Interp, Zero64 | Interp | ordered field; divided differences, uniqueness of the interpolating polynomial | proved |
| C22 | Len3 zero soundness | Interp, Zero64 | InterpZero | extended floats (NaN, Inf decide the branches); loop invariants with fuel | proved |
| C23 | A zero at the centre of the table is found | Interp, Zero64 | InterpZero | extended floats (NaN, Inf decide the branches); loop invariants with fuel | partial |
| C24 | Five point interpolation is the unique quartic | Conjunction, Interp, Round64 | Interp | ordered field; divided differences, uniqueness of the interpolating polynomial | proved |
| C25 | Len5 extremum is a stationary point | Interp, Zero64 | InterpExt5 | ordered field; derivative of the quartic through five points | partial |
| C26 | Len5 zero soundness | Interp, Zero64 | InterpZero | extended floats (NaN, Inf decide the branches); loop invariants with fuel | proved |
| C27 | Len5 strict interpolation covers x1..x5 | Interp | Interp | ordered field; divided differences, uniqueness of the interpolating polynomial | partial |
| C28 | Half-way interpolation is cubic | Interp | Interp | ordered field; divided differences, uniqueness of the interpolating polynomial | proved |
| C29 | Len3ForInterpolateX selects the right rows | Interp | Len3For | extended floats; selection of the three rows around an argument | proved |
| C30 | Linear fit minimises the squared error | Fit, Fit64 | Fit | lists over a field; normal equations give the minimum of the sum of squares | proved |
| C31 | Quadratic fit minimises the squared error | Fit | Fit | lists over a field; normal equations give the minimum of the sum of squares | proved |
| C32 | Function fits minimise the squared error | Fit, Fit64 | Fit | lists over a field; normal equations give the minimum of the sum of squares | proved |
| C33 | Correlation coefficient | Fit, Fit64 | Fit | lists over a field; normal equations give the minimum of the sum of squares | proved |
| C34 | DecimalPlaces contract | Iterate, Kepler64 | Iterate | loops over arbitrary functions; invariants of bisection and fixed point iteration, fuel for loops without bound | proved |
| C35 | BinaryRoot brackets a root | Iterate, Round64 | Iterate | loops over arbitrary functions; invariants of bisection and fixed point iteration, fuel for loops without bound | proved |
| C36 | BinaryRoot finds a root located at a bound | Iterate, Round64 | Iterate | loops over arbitrary functions; invariants of bisection and fixed point iteration, fuel for loops without bound | partial |
| C37 | Kepler3 accuracy | Kepler, Kepler64 | Kepler | real analysis: monotonicity of x - e sin x, contraction, binary search invariant over bits | proved |
| C38 | Kepler1 convergence and accuracy | Iterate, Kepler, Kepler64 | Kepler | real analysis: monotonicity of x - e sin x, contraction, binary search invariant over bits | proved |
| C39 | Kepler2 family residual | Kepler, Kepler64 | Kepler | real analysis: monotonicity of x - e sin x, contraction, binary search invariant over bits | partial |
| C40 | True anomaly and radius satisfy the conic equation | Kepler | Kepler | real analysis: monotonicity of x - e sin x, contraction, binary search invariant over bits | proved |
| C41 | Node passage distances | Orbits | Orbits | conic sections in polar form; derivative along the orbit | proved |
| C42 | Parabolic motion solves Barker's equation | Orbits, Parabolic64 | Orbits | conic sections in polar form; derivative along the orbit | proved |
| C43 | Near-parabolic limit agrees with the parabola | Orbits, Parabolic64 | Orbits | conic sections in polar form; derivative along the orbit | proved |
| C44 | Haversine and Pauwels separations are the true separation | Angle, Sep64 | Angle | unit vectors in ℝ³; law of cosines, identity of haversine and cosine forms | proved |
| C45 | Sep is the true separation across RA wrap | Angle, Sep64 | Angle | unit vectors in ℝ³; law of cosines, identity of haversine and cosine forms | partial |
| C46 | Equatorial and ecliptic conversions are inverse | Coord, Coord64, CoordMethods, Precess | Coord | unit vectors in ℝ³; each conversion is a rotation | proved |
| C47 | Horizontal conversion is invertible | Coord, Coord64, CoordMethods | Coord, CoordMethods | unit vectors in ℝ³; each conversion is a rotation | proved |
| C48 | Galactic conversion is invertible | Coord, CoordMethods | Coord | unit vectors in ℝ³; each conversion is a rotation | proved |
| C49 | Observer's place on the ellipsoid | Globe | Globe | ellipse geometry; parallax constants are coordinates of the point of the ellipsoid | proved |
| C50 | Globe distance of coincident points | Globe | Globe | ellipse geometry; parallax constants are coordinates of the point of the ellipsoid | partial |
| C51 | Precession is a rotation | Precess, Precess64 | Precess | rotation matrices; composition of three elementary rotations; bounds on polynomials of T | proved |
| C52 | In-place use is safe | Precess, Precess64 | Aliasing | heap model of pointers to structs; receiver and argument equal or different | proved |
| C53 | VSOP87 loader terminates | Vsop | Vsop | parser as a step machine over lines with outcomes ok / error / panic and fuel; sums of series | partial |
| C54 | VSOP87 loader reports malformed input as an error | Vsop | Vsop | parser as a step machine over lines with outcomes ok / error / panic and fuel; sums of series | partial |
| C55 | VSOP87 loader loads exactly the terms in the file | Vsop | Vsop | parser as a step machine over lines with outcomes ok / error / panic and fuel; sums of series | proved |
| C56 | Perihelion search never panics and returns the bracketed extremum | Perihelion | Perihelion | loop over an arbitrary distance function, quadratic interpolation | proved |
| C57 | Perihelion search terminates | Perihelion | Perihelion | loop over an arbitrary distance function, quadratic interpolation | partial |
| C58 | Lunar eclipse classification is well defined | Eclipse | Eclipse | decision trees over reals; bounds of periodic sums | proved |
| C59 | Solar eclipse classification is well defined | Eclipse | Eclipse | decision trees over reals; bounds of periodic sums | proved |
| C60 | Rise and set existence | Rise | Rise | spherical triangle of the pole, zenith and body; interpolation over three days | proved |
| C61 | Corrected rise times stay within the day | Rise | Rise | spherical triangle of the pole, zenith and body; interpolation over three days | partial |
| C62 | Sidereal time ranges and day constancy | Rise | Rise | spherical triangle of the pole, zenith and body; interpolation over three days | proved |
| C63 | Apparent0UT is the value at 0h | Rise | Rise | spherical triangle of the pole, zenith and body; interpolation over three days | partial |
| C64 | General sundial specialises to the simple dials | Sundial | Sundial | plane and space geometry: the shadow is the intersection of the ray with the dial plane | proved |
| C65 | Sundial omits points when the Sun is down | Sundial | Sundial | plane and space geometry: the shadow is the intersection of the ray with the dial plane | partial |
| C66 | Seasons are ordered | Solstice, Times64 | Solstice | bounds of polynomials and periodic sums | proved |
| C67 | Moon phase functions pick the nearest event | Moon, Moon64 | Moon | mean arguments, bounds of periodic sums by coefficient sums | proved |
| C68 | Smallest circle | Circle, Circle64 | Circle | plane geometry; smallest enclosing circle, case analysis on the obtuse angle | proved |
| C69 | Topocentric formulas agree | Parallax | Parallax | vectors: the topocentric place is the difference of two vectors; error bounds of the approximate forms | proved |
| C70 | Illuminated fraction | Illum, Illum64 | Illum | law of cosines; magnitudes by logarithms; bounds of polynomials | proved |
| C71 | Saturn84 and Saturn differ by a constant | Illum | Illum | law of cosines; magnitudes by logarithms; bounds of polynomials | partial |
| C72 | Series constants are not truncated | Illum, MoonPos | Illum, MoonPos | law of cosines; magnitudes by logarithms; bounds of polynomials | partial |
| C73 | Moon semidiameter constant | Illum, Rest | Illum | law of cosines; magnitudes by logarithms; bounds of polynomials | partial |
| C74 | Stellar magnitude algebra | Illum, Stellar64 | Illum | law of cosines; magnitudes by logarithms; bounds of polynomials | proved |
| C75 | Binary star apparent orbit | Circle | Binary | projection of the true orbit on the plane of the sky | proved |
| C76 | Mean elements exist for every planet | Deltat, Elements64, Interp, Moon, Precess, Round64, Vsop64 | Deltat | tables and polynomials; branch selection and continuity at the joints | partial |
| C77 | Delta T interpolation never panics | Deltat | Deltat | tables and polynomials; branch selection and continuity at the joints | proved |
| C78 | Jewish calendar dates are dates | Jm | JmJewish | integer layer; molad arithmetic in Spec/Hebrew; Gauss formula reduced to inequalities between residues | partial |
| C79 | FullPrecision converges to the fixed point | Iterate | Iterate | loops over arbitrary functions; invariants of bisection and fixed point iteration, fuel for loops without bound | partial |
| C80 | Kepler4 approximation bound | Kepler | Kepler | real analysis: monotonicity of x - e sin x, contraction, binary search invariant over bits | proved |
| C81 | Near-parabolic routine always returns | Orbits | NearParabolic | power series with remainder; series of the code against the integral | proved |
| C82 | Position angle sense | Angle | Angle | unit vectors in ℝ³; law of cosines, identity of haversine and cosine forms | partial |
| C83 | Ecliptic precession and reduction of orbital elements are the same rotation | Precess, Precess64, ReduceElements64 | Precess | rotation matrices; composition of three elementary rotations; bounds on polynomials of T | proved |
| C84 | Catalogue equinox reduction of orbital elements | Precess, ReduceElements64 | Motion | unit vectors; straight motion in space against linear motion on the sphere | partial |
| C85 | Proper motion in space is straight-line motion | Precess | Motion | unit vectors; straight motion in space against linear motion on the sphere | proved |
| C86 | Aberration is the transverse part of one velocity | Apparent, RonVondrak | Apparent | first and second order Taylor estimates of nutation and aberration | proved |
| C87 | Equatorial proper motion carried to the ecliptic | Precess | Motion | unit vectors; straight motion in space against linear motion on the sphere | proved |
| C88 | Nutation is a small rotation | Apparent | Apparent | first and second order Taylor estimates of nutation and aberration | proved |
| C89 | Perihelia and aphelia alternate | Extrema64, Perihelion | Perihelion | loop over an arbitrary distance function, quadratic interpolation | proved |
| C90 | Moon phases follow each other in order | Moon, Moon64 | Moon | mean arguments, bounds of periodic sums by coefficient sums | proved |
| C91 | Lunar apsides and nodes alternate | Moon, Moon64 | Moon | mean arguments, bounds of periodic sums by coefficient sums | proved |
| C92 | Planetary argument A1 of the Moon phases | Eclipse, Moon, Moon64 | Moon | mean arguments, bounds of periodic sums by coefficient sums | partial |
| C93 | Mean phases are within half a day of the true phases | Moon | Moon | mean arguments, bounds of periodic sums by coefficient sums | partial |
| C94 | The quick test for no eclipse is sound | Eclipse, Moon64 | Eclipse | decision trees over reals; bounds of periodic sums | proved |
| C95 | Phase angle of the Moon | Illum | Illum | law of cosines; magnitudes by logarithms; bounds of polynomials | proved |
| C96 | Bright limb points to the Sun | Illum | Illum | law of cosines; magnitudes by logarithms; bounds of polynomials | proved |
| C97 | Illuminated fraction of Venus is a fraction | Illum | Illum | law of cosines; magnitudes by logarithms; bounds of polynomials | partial |
| C98 | Apparent polar semidiameter of Saturn | Illum | Illum | law of cosines; magnitudes by logarithms; bounds of polynomials | proved |
| C99 | Topocentric ecliptical place | Parallax | Parallax | vectors: the topocentric place is the difference of two vectors; error bounds of the approximate forms | proved |
| C100 | Equatorial sundial points are finite | Sundial | Sundial | plane and space geometry: the shadow is the intersection of the ray with the dial plane | partial |
| C101 | Sundial points are shadows | Sundial | Sundial | plane and space geometry: the shadow is the intersection of the ray with the dial plane | proved |
| C102 | Parallactic angle | Parallactic | Parallactic | spherical triangles as inner products; derivative of the altitude | proved |
| C103 | Ecliptic and horizon | Parallactic | Parallactic | spherical triangles as inner products; derivative of the altitude | proved |
| C104 | Diurnal path at the horizon | Parallactic | Parallactic | spherical triangles as inner products; derivative of the altitude | proved |
| C105 | Time of alignment | Interp, Line, Zero64 | Line | three vectors in one plane; derivative with respect to time | partial |
| C106 | Angle between lines | Line | Line | three vectors in one plane; derivative with respect to time | partial |
| C107 | Distance from a line | Line | Line | three vectors in one plane; derivative with respect to time | proved |
| C108 | Refraction | Refraction | Refraction | monotonicity by derivatives, numeric bounds | partial |
| C109 | Speed on an elliptic orbit | Elliptic, Speed64 | Elliptic | equations of motion by derivatives; arithmetic–geometric mean and series for the ellipse; light-time iteration | proved |
| C110 | Length of the ellipse by series | Elliptic, Length64 | Elliptic | equations of motion by derivatives; arithmetic–geometric mean and series for the ellipse; light-time iteration | proved |
| C111 | Length of the ellipse by approximations | Elliptic, Lengths64 | Elliptic | equations of motion by derivatives; arithmetic–geometric mean and series for the ellipse; light-time iteration | proved |
| C112 | Place of a body on an elliptic orbit | Elliptic, Kepler, Kepler64 | Elliptic | equations of motion by derivatives; arithmetic–geometric mean and series for the ellipse; light-time iteration | proved |
| C113 | Astrometric place and light time | Elliptic | Elliptic | equations of motion by derivatives; arithmetic–geometric mean and series for the ellipse; light-time iteration | proved |
| C114 | Coordinates of the Sun | Solar, Solar64 | Solar, SolarApparent | bounds between the equation of centre and its definition, branches of mod | proved |
| C115 | Equation of time | Solar | Eqtime, Solar | Taylor estimates of the equation of time against its definition | proved |
| C116 | Nutation and obliquity | Nutation, Position64 | Nutation, NutationCert | bounds of periodic sums over tables, truncated against the full series | proved |
| C117 | Physical ephemeris of the Sun | Solar | Solar | bounds between the equation of centre and its definition, branches of mod | proved |
| C118 | Rectangular coordinates of the Sun | Precess, Precess64, Solar | Solar, Solarxyz | bounds between the equation of centre and its definition, branches of mod | proved |
| C119 | Conjunctions | Conjunction, Interp, Zero64 | Conjunction | interpolation over tables; zero of the difference | partial |
| C120 | Least separation by interpolation | Conjunction, Interp, Zero64 | Conjunction | interpolation over tables; zero of the difference | partial |
| C121 | Least separation in rectangular coordinates | Conjunction | Conjunction | interpolation over tables; zero of the difference | partial |
| C122 | Conjunctions and oppositions of the planets | Planetary | Planetary | mean periods and periodic sums; nearest event | proved |
| C123 | Nearest elongation and station | Planetary, Planetary64 | Planetary | mean periods and periodic sums; nearest event | partial |
| C124 | Order of planetary phenomena | Planetary | Planetary | mean periods and periodic sums; nearest event | proved |
| C125 | Extreme declinations of the Moon | Planetary | Planetary | mean periods and periodic sums; nearest event | partial |
| C126 | The Moon stays near the ecliptic and its distance and parallax are in the right range | MoonPos, Position64, Round64 | MoonPos | bounds of the periodic sums of longitude, latitude, distance | partial |
| C127 | The true node of the lunar orbit stays near the mean node, all in [0, 360) | Illum, MoonPos | MoonPos | bounds of the periodic sums of longitude, latitude, distance | partial |
| C128 | Librations are the selenographic coordinates of the Earth; the position angle is that of the lunar axis | MoonPos | MoonPhys | rotation of the selenographic frame; bounds of librations | proved |
| C129 | Selenographic coordinates of the Sun are those of its direction from the Moon | MoonPos | MoonSun | spherical geometry of the terminator; iteration of the sunrise | partial |
| C130 | Altitude of the Sun at a lunar site is the complement of its zenith distance | MoonPos | MoonSun | spherical geometry of the terminator; iteration of the sunrise | proved |
| C131 | Lunar sunrise and sunset are the events nearest the given date | MoonPos | MoonSun | spherical geometry of the terminator; iteration of the sunrise | partial |
| C132 | Near-parabolic positions obey the law of areas | Orbits | NearParabolicTime | real analysis on the time since perihelion | proved |
| C133 | Heliocentric positions are the VSOP87 series of the loaded file | PlanetPos, Vsop, Vsop64 | PlanetPos | elements as polynomials, reduction of angles | proved |
| C134 | ToFK5 is a small rotation | PlanetPos | PlanetPos | elements as polynomials, reduction of angles | proved |
| C135 | Times and Julian days are inverse to each other | Julian, Julian64, JulianTime | JulianTime | calendar and time scales over ℝ on top of the integer layer | proved |
| C136 | Julian and Besselian years | PlanetPos | JulianTime | calendar and time scales over ℝ on top of the integer layer | proved |
| C137 | Saturn's ring: geometry seen from the Earth and the Sun | PlanetPhys | SaturnRing | frames of the ring; inner products | proved |
| C138 | Saturn's ring: ΔU is the difference of Saturnicentric longitudes | PlanetPhys, Rest | SaturnRing | frames of the ring; inner products | partial |
| C139 | Physical ephemeris of Mars | PlanetPhys | Mars | frame of the axis; inner products; light-time iteration | proved |
| C140 | Physical ephemeris of Jupiter | PlanetPhys | Jupiter | frame of the axis; inner products | proved |
| C141 | Light-time iteration gives the place at which the light left | PlanetPhys | LightTime | contraction of the light-time step | proved |
| C142 | Low-accuracy ephemeris of Jupiter: triangle, declinations, central meridians | JupiterMoons | JupiterMoons | bounds of periodic sums; geometry of the plane of the sky | proved |
| C143 | Galilean satellites move on ellipses in Jupiter's equator | JupiterMoons | JupiterMoons | bounds of periodic sums; geometry of the plane of the sky | proved |
| C144 | Io, Europa and Ganymede are never all three in front of the disk | JupiterMoons | JupiterMoons | bounds of periodic sums; geometry of the plane of the sky | proved |
| C145 | Planetary phenomena agree with the mean longitudes of the other packages | Deltat, Elements64, Planetary, Planetary64, Solar, Solar64 | PlanetaryMean | arguments against mean longitudes of planetelements, congruence modulo a turn | proved |
| C146 | Orbital elements carried from B1950 to J2000 describe the same orbit in space | Precess, ReduceElements64 | ElementEquinox | rotations of the orbital frame | partial |
| C147 | Polynomials for Delta T agree with the table | Deltat, Times64 | DeltatPoly | interval evaluation of the polynomials on pieces between table entries | proved |
| C148 | Satellites of Saturn are projected from one orbit in space | PlanetPhys, SaturnMoons | SaturnMoons | orbital frames as rotations; bounds of perturbations | proved |
| C149 | Satellites of Saturn keep their order and obey Kepler's third law | SaturnMoons | SaturnMoons | orbital frames as rotations; bounds of perturbations | proved |
| C150 | Galilean satellites by the theory E5 are projected from one orbit in space | JupiterE5 | JupiterE5 | orbital frames, bounds of perturbations | proved |
| C151 | Theory E5 keeps distances, latitudes, the third law and the Laplace resonance | JupiterE5 | JupiterE5 | orbital frames, bounds of perturbations | proved |
| C152 | The two methods for the Galilean satellites agree | JupiterE5, JupiterMoons | JupiterE5 | orbital frames, bounds of perturbations | proved |
| C153 | Pluto stays on its orbit | Pluto, Solar64 | Pluto | bounds of periodic sums; derivative along the orbit | proved |
| C154 | Pluto obeys the law of areas | Pluto, Solar64 | Pluto | bounds of periodic sums; derivative along the orbit | proved |
| C155 | Astrometric place of Pluto | Elliptic, Pluto | Pluto | bounds of periodic sums; derivative along the orbit | proved |
| C156 | Rise and transit of a planet hold on every day | Rise, RisePlanet | RisePlanet | as Rise, positions of the planet a parameter | partial |
| C157 | Standard altitude of the Moon | Rise, RisePlanet | RisePlanet | as Rise, positions of the planet a parameter | proved |
| C158 | Equinoxes and solstices agree with the longitude of the Sun | Solar, Solar64, Solstice, Times64 | SolsticeSun | Taylor polynomials with rational coefficients, identities certified by kernel computation (Lemmas/PolyQ) | proved |
| C159 | Accurate equinoxes and solstices terminate at the right instant | Solstice2 | Solstice2 | convergence of the loop for any theory of the Sun with the stated bounds | proved |
| C160 | Short formulas for the Earth against the ellipsoid | Globe, Rest | Globe2 | polynomials in cos 2φ bounded by their coefficients (kernel computation on rationals), arctan and square root estimates | proved |
| C161 | Magnitudes of the planets | Illum, Rest | Magnitude | logarithms, cubic polynomials on an interval; extended floats for Cmp | partial |
| C162 | Semidiameter of an asteroid | Rest | Magnitude | logarithms, cubic polynomials on an interval; extended floats for Cmp | partial |
| C163 | Comparison of floats | Rest | Magnitude | logarithms, cubic polynomials on an interval; extended floats for Cmp | partial |
| C164 | Coordinate conversion methods on values in memory | CoordMethods, Precess | CoordMethods | memory model (one function per struct type) over the conversions of Coord | proved |
| C165 | Lunar phenomena against the mean arguments of the Moon | Eclipse, Illum, Moon, Moon64, MoonPos, Position64, Round64 | MoonArgs | composition of rational polynomials, residues bounded on an interval by the sum of the scaled coefficients | proved |
| C166 | Calendar conversions in double precision | Julian, Julian64, JulianTime | Julian64 | IEEE binary64 rounding; exactness of intermediate values as multiples of a power of two | proved |
| C167 | Polynomials and centuries in double precision | Elements64, Interp, Moon, MoonPos, Planetary64, Position64, Precess, Rise, Round64, Solar64, Times64, Vsop64 | Round64 | IEEE binary64 rounding; forward error analysis by induction over the loop; monotonicity of rounding for the midpoint | proved |
| C168 | Binary search in double precision | Iterate, Round64 | Round64 | IEEE binary64 rounding; forward error analysis by induction over the loop; monotonicity of rounding for the midpoint | proved |
| C169 | Three point interpolation in double precision | Conjunction, Interp, Round64, Zero64 | Round64 | IEEE binary64 rounding; forward error analysis by induction over the loop; monotonicity of rounding for the midpoint | proved |
| C170 | Moon phases agree with the Moon's position | Moon, Moon64, MoonPos, Position64, Round64, Solar, Solar64 | PhaseMoon | second order Taylor expansion of the series of the longitude in the correction, Laurent polynomials of Lemmas/Laurent, remainders bounded by sums of coefficients | proved |
| C171 | Node passages agree with the Moon's latitude | Moon, Moon64, MoonPos, Position64, Round64 | NodeMoon | as PhaseMoon, for the latitude of the Moon at the nodes | proved |
| C172 | Phase angle of the Moon from a date | Illum, MoonPos, Position64, Round64, Solar, Solar64 | PhaseAngle | terms of the two series matched, the others bounded; triangle Moon-Earth-Sun for the distances | proved |
| C173 | Sidereal time and the Sun | Rise, Solar, Solar64, Times64 | SiderealSun | residue of rational polynomials bounded on an interval | proved |
| C174 | Equation of the centre and Kepler's equation | Kepler, Solar, Solar64 | SunKepler | expansion of the true anomaly to the third power of the eccentricity with remainder, coefficients compared on an interval | proved |
| C175 | Perihelion dates against the mean anomalies of the planets | Deltat, Elements64, Extrema64, Perihelion, Solar, Solar64 | PerihelionMean | composition of rational polynomials, residue bounded by its coefficients on the interval | proved |
| C176 | Refraction formulas undo each other | Refraction | RefractionInverse | The cotangent of an angle up to 0.31 is enclosed between 1/u - u/3 - 0.078u² and 1/u - u/3; with these the difference becomes a rational function of the altitude, whose sign is settled by Taylor coefficients on small cells (rational arithmetic in the kernel, lifted by a lemma to every real of a cell); above 16.5 degrees crude bounds suffice; the pair above 15 degrees likewise with t = tan z as the variable. | proved |
| C177 | The ways to compute aberration agree | Apparent, Precess, RonVondrak, Solar, Solar64 | RonVondrak | The table of Ron and Vondrák is summed as a vector (velocity of the Earth) in the frame of 2000; the velocity of the classical formulas is written by the equation of the centre in the same arguments; the difference is bounded, then carried to the displacement on the sky. | proved |
| C178 | Precession undoes itself and may go through an intermediate epoch | Precess, Precess64 | PrecessRoutes | Each precession is a product of rotations (C51, C83). The sines and cosines of the angles are enclosed by integer polynomials in the two epochs with an error bound (Lemmas/TaylorModel, a Taylor model arithmetic proved sound; Props/PrecessCert, the computed enclosures); the difference of two products of rotations is then evaluated in this arithmetic by the kernel. The there-and-back law is algebraic: the angles of the way back are the negatives. | proved |
| C179 | Equatorial and ecliptic precession are the same motion | Coord, Coord64, CoordMethods, Nutation, PlanetPos, Position64, Precess, Precess64 | PrecessRoutes | Each precession is a product of rotations (C51, C83). The sines and cosines of the angles are enclosed by integer polynomials in the two epochs with an error bound (Lemmas/TaylorModel, a Taylor model arithmetic proved sound; Props/PrecessCert, the computed enclosures); the difference of two products of rotations is then evaluated in this arithmetic by the kernel. The there-and-back law is algebraic: the angles of the way back are the negatives. | proved |
| C180 | Approximate annual precession is the rate of precession between the epochs | Precess, Precess64 | AnnualPrecession | The rate of Precess at an epoch is a derivative (HasDerivAt of the direction), computed from the rotations of C51; compared with the velocity of the coordinates returned. | partial |
| C181 | Axes of Saturn's ring, Jupiter and the Sun stay fixed in space | PlanetPhys, Precess, Precess64, SaturnMoons, Solar | FixedPlanes | The poles of the planes as products of rotations, carried by the rotations of precession; differences enclosed by the arithmetic of Lemmas/TaylorModel. | proved |
| C182 | Eclipses fit the phases and the position of the Moon | Eclipse, Moon, Moon64, MoonPos, Position64, Round64 | EclipseMoon | as PhaseMoon; the product of distance and latitude of the Moon at the greatest eclipse against γ, with exact Laurent coefficients (small ones dropped and bounded) | proved |
| C183 | Dates of phases, apsides and nodes are right in double precision | Moon, Moon64 | Moon64 | straight-line float64 expressions (Go/FloatExpr.lean): the relation of the possible results, a forward error bound computed from the expression and proved sound once, evaluated by the kernel for each function; values of the expressions identified with the models in exact arithmetic | proved |
| C184 | Position of the Moon and nutation are right in double precision | MoonPos, Nutation, Position64, Round64 | Position64 | as Moon64, for the position of the Moon and nutation | proved |
| C185 | Eclipses are classified right in double precision | Eclipse, Moon, Moon64 | Eclipse64 | as Moon64; comparisons, division and square roots after the elements are bounded by hand | proved |
| C186 | The solvers of Kepler's equation hold in double precision | Iterate, Kepler, Kepler64 | Kepler64, Kepler64Dir | binary64 relations (fused or not) for the bisection and the iterations; for the bisection the invariant is a nearby point that satisfies the equation to 2e-15, moved to the current point whenever rounding took the wrong side; for the iterations the residual of the last step, and a geometric bound of the steps for convergence | proved |
| C187 | Equinoxes, seasons, ΔT polynomials and sidereal time hold in double precision | Deltat, Rise, Solstice, Times64 | Times64 | expressions of the code in the float analyser against the exact models; the half day added in sidereal time by the grid of float64 | proved |
| C188 | Planetary phenomena in double precision | Planetary, Planetary64 | Planetary64 | expressions of the code in the float analyser, with two variables: the number of the event, exact, and the reduced anomaly, rounded; the loops of sum and sumA by induction; the choice of the event by a bound on the quotient | proved |
| C189 | Perihelia, aphelia and extreme declinations in double precision | Extrema64, Perihelion, Planetary | Extrema64 | expressions of the code in the float analyser, k exact; the choice of the event as in Planetary64 | proved |
| C190 | Angular separations in double precision | Angle, Moon, Sep64, Vsop64 | Sep64 | expressions of the code in the float analyser; arc cosine near the ends bounded through the sine of the mean, atan2 through the norm of the error, hypot by its Lipschitz constant; violation by cases on the ways of rounding the haversine | partial |
| C191 | Latitude, declination and altitude from the conversions of coordinates in double precision | Coord, Coord64, Precess | Coord64 | arguments of the arc sine in the float analyser, identified with the cosine of the distance from the pole; arc cosine Hölder continuous; violation with Taylor polynomials of degree 18 that settle the roundings | partial |
| C192 | Longitude, right ascension and azimuth from the conversions of coordinates in double precision | Coord, Coord64, Precess | CoordLon64 | error of the tangent and of the sum of products by hand, scaled by the secant; direction of a perturbed vector by its components along and across it | proved |
| C193 | Rigorous precession in double precision | Precess, Precess64 | Precess64 | components in the float analyser over epochs and angles, both branches; polynomials identified by ring; arc sine away from the pole through the sine of the mean, arc cosine of the hypotenuse near it; longitude through the direction of a perturbed vector | proved |
| C194 | Reduction of orbital elements in double precision | Precess, ReduceElements64 | ReduceElements64 | arguments in the float analyser; arc cosine Hölder continuous; node and perihelion through the direction of a perturbed vector scaled by the sine of the inclination | proved |
| C195 | The Sun and Pluto in double precision | Pluto, Solar, Solar64 | Solar64 | series in the float analyser with angles converted from degrees as variables of stated error; quotient by hand | proved |
| C196 | Heliocentric positions by VSOP87 in double precision | Angle, Elements64, Interp, Moon, PlanetPos, Planetary64, Position64, Precess, Rise, Round64, Sep64, Solar64, Times64, Vsop64 | Vsop64 | induction on the list of terms with the error as a weighted sum of amplitudes; the six rounds of Horner by hand | proved |
| C197 | Straight line and function fit in double precision | Fit, Fit64 | Fit64 | induction on the points, products of sums with errors, quotient by hand; whole numbers and square roots evaluated for the counterexamples | proved |
| C198 | Correlation coefficient stays in [-1, 1] in double precision | Fit, Fit64 | Fit64 | induction on the points, products of sums with errors, quotient by hand; whole numbers and square roots evaluated for the counterexamples | partial |
| C199 | Lagrange interpolation in double precision | Interp, Lagrange64 | Lagrange64 | induction on the rows with relative errors; exactness at the abscissae since x/x = 1 and products with 0 vanish | proved |
| C200 | Phase angle and illuminated fraction in double precision | Illum, Illum64 | Illum64 | errors by hand; counterexample by evaluation of the roundings | partial |
| C201 | Mean elements of the planets in double precision | Deltat, Elements64 | Elements64 | analyser of float expressions for all 48 polynomials | proved |
| C202 | Motion in a parabola in double precision | Orbits, Parabolic64 | Parabolic64 | relative errors carried through by hand; counterexample by evaluation of the roundings | partial |
| C203 | The length of an orbit in double precision | Elliptic, Length64 | Length64, Length64Acc | invariant of the loop over the rounded variables; terms fall like the inverse cube of the round | partial |
| C204 | Speeds on an orbit in double precision | Elliptic, Speed64 | Speed64 | relative errors carried through by hand; monotonicity of rounding | proved |
| C205 | The smallest circle in double precision | Circle, Circle64 | Circle64 | what the comparison of rounded squares says about the sides (gap between doubles), then relative errors by hand; counterexample by evaluation of a tie | partial |
| C206 | The approximate lengths of an orbit in double precision | Elliptic, Lengths64 | Lengths64 | relative errors carried through by hand, differences of means bounded below by the arithmetic mean | proved |
| C207 | Combined magnitudes in double precision | Illum, Stellar64 | Stellar64 | errors carried in the logarithm: log(10^x + 1) is 1-Lipschitz, a relative error becomes an absolute one; induction over the list for SumN | proved |
| C208 | Zeros and extrema of a table in double precision | Interp, Zero64 | Zero64 | the last step and the test of the iteration, inverted by hand; all errors in units of the largest value of the table | proved |

## Code modelled

Functions and methods of `/repo/v3` by package, from the citations beside the definitions (package: functions with a model).

* angle: Sep, MinSep, MinSepRect, SepHav, SepPauwels, RelativePosition
* apparent: Nutation, perihelion, EclipticAberration, Aberration, Position, AberrationRonVondrak, PositionRonVondrak
* apsis: mean, snap, MeanPerigee, Perigee, MeanApogee, Apogee, ApogeeParallax, PerigeeParallax, newLa, la.pc, la.ac, la.ap, la.pp
* base: LightTime, JulianYearToJDE, JDEToJulianYear, BesselianYearToJDE, JDEToBesselianYear, J2000Century, Hav, Horner, FloorDiv, FloorDiv64, Cmp, Illuminated, Limb
* binary: M, Position, ApparentEccentricity
* circle: Smallest
* conjunction: Planetary, Stellar, conj
* coord: NewObliquity, Ecliptic.EqToEcl, EqToEcl, Equatorial.EclToEq, EclToEq, Equatorial.HzToEq, HzToEq, Equatorial.GalToEq, GalToEq, Horizontal.EqToHz, EqToHz, Galactic.EqToGal, EqToGal
* deltat: Interp10A, c2000, PolyBefore948, Poly948to1600, PolyAfter2000, jc1900, Poly1800to1997, Poly1800to1899, Poly1900to1997
* easter: Gregorian, Julian
* eclipse: g, snap, Solar, Lunar
* elementequinox: ReduceB1950ToJ2000, ReduceB1950FK4ToJ2000FK5
* elliptic: Position, Elements.Position, AstrometricJ2000, Velocity, VAphelion, VPerihelion, Length1, Length2, Length4
* eqtime: E, l0, ESmart
* fit: Linear, CorrelationCoefficient, Quadratic, Func3, Func1
* globe: Ellipsoid.A, Ellipsoid.B, Ellipsoid.Eccentricity, Ellipsoid.ParallaxConstants, Rho, Ellipsoid.RadiusAtLatitude, OneDegreeOfLongitude, Ellipsoid.RadiusOfCurvature, OneDegreeOfLatitude, GeocentricLatitudeDifference, ApproxAngularDistance, ApproxLinearDistance, Ellipsoid.Distance, sincos2
* illum: PhaseAngle, Fraction, PhaseAngle2, PhaseAngle3, FractionVenus, Mercury, Venus, Mars, Jupiter, Saturn, Uranus, Neptune, Mercury84, Venus84, Mars84, Jupiter84, Saturn84, Uranus84, Neptune84, Pluto84
* interp: NewLen3, Len3ForInterpolateX, Len3.InterpolateX, Len3.InterpolateXStrict, Len3.InterpolateN, Len3.InterpolateNStrict, Len3.Extremum, Len3.Zero, iterate, Len4Half, NewLen5, Len5.InterpolateX, Len5.InterpolateXStrict, Len5.InterpolateN, Len5.InterpolateNStrict, Len5.Extremum, Len5.Zero, Lagrange, LagrangePoly
* iterate: DecimalPlaces, FullPrecision, BinaryRoot
* jm: JewishCalendar, bigD, MoslemToJulian, JulianToGregorian, ymd, MoslemLeapYear, GregorianToJulian, JulianToMoslem, MMonth.String
* julian: CalendarGregorianToJD, CalendarJulianToJD, LeapYearJulian, LeapYearGregorian, JDToCalendar, jdToCalendarGregorian, JDToTime, TimeToJD, DayOfWeek, DayOfYearGregorian, DayOfYearJulian, DayOfYear, DayOfYearToCalendar, wholeMonths
* jupiter: Physical, Physical2
* jupitermoons: Positions, E5
* kepler: True, Radius, Kepler1, Kepler2, Kepler2a, Kepler2b, Kepler3, Kepler4
* line: Time, Angle, Error, AngleError
* mars: Physical
* moon: Physical, newMoon, moon.lib, moon.optical, moon.physical, moon.pa, moon.sun, SunAltitude, Sunrise, Sunset, srCorr
* moonillum: PhaseAngleEq, cψEq, pa, PhaseAngleEq2, PhaseAngleEcl, cψEcl, PhaseAngleEcl2, PhaseAngle3
* moonmaxdec: North, South, max
* moonnode: Ascending, Descending, node
* moonphase: mean, snap, MeanNew, MeanFirst, MeanFull, MeanLast, New, First, Full, Last, newMp, mp.nfc, mp.flc, mp.w, mp.a
* moonposition: Parallax, dmf, Position, Node, Perigee, TrueNode
* nearparabolic: Elements.AnomalyDistance
* node: EllipticAscending, EllipticDescending, el, ParabolicAscending, ParabolicDescending, pa
* nutation: Nutation, ApproxNutation, MeanObliquity, MeanObliquityLaskar, NutationInRA
* parabolic: Elements.AnomalyDistance
* parallactic: ParallacticAngle, ParallacticAngleOnHorizon, EclipticAtHorizon, EclipticAtEquator, DiurnalPathAtHorizon
* parallax: Horizontal, Topocentric, Topocentric2, Topocentric3, TopocentricEcliptical
* perihelion: Perihelion, pf, Aphelion, af, ap, ap2, ap2a
* planetary: mean, sum, ms, MercuryInfConj, MercurySupConj, VenusInfConj, MarsOpp, sumA, msa, JupiterOpp, SaturnOpp, SaturnConj, UranusOpp, NeptuneOpp, el, MercuryEastElongation, MercuryWestElongation, MarsStation2
* planetelements: Mean, Inc, Node
* planetposition: LoadPlanetPath, coeff.parse, V87Planet.Position2000, V87Planet.Position, ToFK5
* pluto: Heliocentric, Astrometric, init
* precess: ApproxAnnualPrecession, mn, ApproxPosition, NewPrecessor, Precessor.Precess, Position, NewEclipticPrecessor, EclipticPrecessor.Precess, EclipticPrecessor.ReduceElements, EclipticPosition, eqProperMotionToEcl, ProperMotion3D
* refraction: Gt15True, Gt15Apparent, Bennett, Bennett2, Saemundsson
* rise: Stdh0Lunar, ApproxTimes, Times, ApproxPlanet, Planet
* saturnmoons: Positions, newQs, qs.mimas, qs.enceladus, qs.tethys, qs.dione, qs.rhea, qs.subr, qs.titan, qs.hyperion, qs.iapetus
* saturnring: UB, cl
* semidiameter: Semidiameter, SaturnApparentPolar, MoonTopocentric, MoonTopocentric2, AsteroidDiameter, Asteroid
* sidereal: jdToCFrac, Mean, mean, Mean0UT, mean0UT, Apparent, Apparent0UT
* solar: True, MeanAnomaly, Eccentricity, Radius, ApparentLongitude, node, True2000, TrueEquatorial, ApparentEquatorial, TrueVSOP87, ApparentVSOP87, ApparentEquatorialVSOP87, aberration
* solardisk: Ephemeris, Cycle
* solarxyz: Position, LongitudeJ2000, PositionJ2000, xyz, PositionB1950, PositionEquinox
* solstice: March, June, September, December, eq, March2, June2, September2, December2, eq2
* stellar: Sum, SumN, Ratio, Difference, AbsoluteByParallax, AbsoluteByDistance
* sundial: General, Equatorial, Horizontal, Vertical

## Code not modelled

* `v3/elliptic/elliptic.go` Length3: commented out in the source
* `v3/moon/moon.go` Topocentric: commented out in the source
* `v3/moon/moon.go` TopocentricCorrections: commented out in the source
* `v3/perihelion/perihelion.go` Perihelion2: wrapper of `ap2`, which is modelled
* `v3/perihelion/perihelion.go` Aphelion2: wrapper of `ap2`, which is modelled
* `v3/planetposition/planetposition.go` LoadPlanet: reads an environment variable and calls LoadPlanetPath, whose parser is modelled
* `v3/saturnring/saturnring.go` Ring: returns the results of the two closures, which are modelled
* `*_test.go`, the documentation-only packages (accuracy, hints, sort and the like), the module `github.com/soniakeys/unit`, file input of `LoadPlanetPath` (the contents of the file are a parameter), formatting of floats.

## Axioms of each theorem

* Classical.choice, Quot.sound, propext: 659 theorems
  `C01_floorDiv_floor`, `C01_floorDiv64_floor`, `C02_gregorian_dayCount`, `C03_julian_dayCount`, `C03_reform`, `C04_date_jd_date`, `C04_jd_date_jd`, `C04_jd_proleptic`, `C05_julian_roundtrip_partial`, `C05_jd_date_jd_partial`, `C05_violation`, `C05_violation_oct4`, `C06_dayOfWeek_constant`, `C06_dayOfWeek_step`, `C06_dayOfWeek_anchor`, `C06_violation_negative`, `C07_leapGregorian_length`, `C07_leapJulian_length`, `C07_leap_density`, `C08_dayOfYearGregorian`, `C08_dayOfYearJulian`, `C08_calendar_of_dayOfYear`, `C08_dayOfYear_of_calendar`, `C09_easterGregorian_first_sunday`, `C09_easterGregorian_range`, `C09_easterGregorian_dayOfWeek`, `C10_easterJulian_first_sunday`, `C10_easterJulian_range`, `C10_easterJulian_dayOfWeek`, `C11_easterGregorian_period`, `C11_easterGregorian_minimal`, `C11_easterJulian_minimal`, `C12_jewish_weekdays`, `C13_newYear_exact`, `C13_days_exact`, `C13_days_values`, `C13_months`, `C13_violation`, `C13_violation_1582`, `C14_moslemToJulian_day`, `C14_dayOfYear_range_partial`, `C14_dayOfYear_pos_partial`, `C15_moslemLeapYear`, `C15_moslemLeapYear_density`, `C16_same_year_partial`, `C16_next_year_partial`, `C16_violation`, `C16_violation_first_year`, `C17_julianToGregorian`, `C17_julianToGregorian_before`, `C17_gregorianToJulian`, `C18_horner`, `C19_through`, `C19_reproduces`, `C19_order`, `C19_poly`, `C20_newLen3_errors`, `C20_len3_polynomial`, `C20_len3_unique`, `C20_len3_strict`, `C21_extremum_sound`, `C21_extremum_complete`, `C21_extremum_errors`, `C22_zero_sound`, `C23_len3_violation`, `C23_len5_violation`, `C24_newLen5_errors`, `C24_len5_polynomial`, `C24_len5_unique`, `C25_extremum_partial`, `C25_extremum_no_third_partial`, `C25_violation`, `C26_zero_sound`, `C26_linear`, `C27_len5_strict_partial`, `C27_violation`, `C28_len4Half`, `C29_selects`, `C29_tabulated`, `C29_errors`, `C30_linear`, `C31_quadratic`, `C31_exact`, `C32_func3`, `C32_func3_quadratic`, `C32_func1`, `C33_range`, `C33_symmetric`, `C33_line`, `C34_decimalPlaces`, `C34_contraction`, `C35_binaryRoot`, `C35_between`, `C36_root_at_bound_partial`, `C36_violation`, `C37_kepler3`, `C38_kepler1_accuracy`, `C38_kepler1_converges`, `C39_kepler2`, `C39_kepler2b`, `C39_kepler2a_partial`, `C39_kepler2a_violation`, `C40_true_radius`, `C41_elliptic_ascending`, `C41_elliptic_descending`, `C41_parabolic_ascending`, `C41_parabolic_descending`, `C42_parabolic`, `C42_symmetric`, `C43_nearparabolic_limit`, `C44_sepHav`, `C44_sepPauwels`, `C44_metric`, `C45_sep_partial`, `C45_sep_small_partial`, `C45_violation`, `C46_eqToEcl_rotation`, `C46_eclToEq_rotation`, `C46_roundtrip_eq`, `C46_roundtrip_ecl`, `C46_separation`, `C47_eqToHz`, `C47_roundtrip`, `C47_roundtrip_hz`, `C48_eqToGal`, `C48_galToEq`, `C48_roundtrip_eq`, `C48_roundtrip_gal`, `C48_pole`, `C49_parallaxConstants`, `C49_height`, `C49_radiusOfCurvature`, `C50_symmetric`, `C50_violation`, `C50_distance_partial`, `C50_meridian`, `C51_rotation`, `C51_angles`, `C51_separation_preserved`, `C51_range`, `C51_identity`, `C51_position_zero_motion`, `C51_example`, `C52_position`, `C52_approxPosition`, `C52_eclipticPosition`, `C52_reduceB1950`, `C52_reduceFK4`, `C52_apparentPosition`, `C52_positionRonVondrak`, `C53_terminates_partial`, `C54_no_panic_partial`, `C54_truncated_violation`, `C54_negative_violation`, `C55_loads_exactly`, `C56_bracketed`, `C56_neptune`, `C57_terminates_forward_partial`, `C57_terminates_backward_partial`, `C57_plateau_violation`, `C57_example`, `C58_kind`, `C58_numbers`, `C58_example`, `C59_kind`, `C59_numbers`, `C60_error_iff`, `C60_times`, `C60_example`, `C60_example_circumpolar`, `C61_transit_partial`, `C61_rise_set`, `C61_violation`, `C62_range`, `C62_day`, `C62_midnight`, `C63_violation`, `C63_midnight_partial`, `C64_vertical`, `C64_horizontal`, `C65_up_partial`, `C65_general_horizontal_partial`, `C65_violation`, `C66_lengths`, `C66_order`, `C67_phase_nearest`, `C67_apsis_node_nearest`, `C68_smallest`, `C68_bounds`, `C68_order`, `C68_triangle`, `C69_topocentric`, `C69_topocentric3`, `C69_agree`, `C69_no_parallax`, `C69_topocentric2`, `C70_fraction`, `C70_geometry`, `C71_violation`, `C71_difference_partial`, `C72_violation`, `C72_near2000_partial`, `C72_always_violation`, `C73_violation`, `C73_violation_mean`, `C74_sumN_flux`, `C74_sum_two`, `C74_sumN_perm`, `C74_sum_comm`, `C74_brighter`, `C74_ratio_difference`, `C74_difference_ratio`, `C74_absolute`, `C75_position`, `C75_range`, `C75_face_on`, `C75_ellipse`, `C75_mean`, `C76_violation`, `C76_other_partial`, `C76_ellipse_partial`, `C77_total`, `C77_tabulated`, `C77_example`, `C77_smooth`, `C78_valid_dates_partial`, `C78_violation`, `C79_fullPrecision_partial`, `C79_violation`, `C80_kepler4`, `C81_nearparabolic_terminates`, `C82_relativePosition_partial`, `C82_violation`, `C83_ecliptic_rotation`, `C83_angles`, `C83_separation_preserved`, `C83_identity`, `C83_reduceElements`, `C83_inclination_range`, `C84_fk4_rotation`, `C84_b1950_partial`, `C84_b1950_violation`, `C85_straight_line`, `C85_range`, `C86_ecliptic`, `C86_equatorial`, `C86_agree`, `C86_ronVondrak`, `C86_bound`, `C86_example`, `C87_motion_to_ecliptic`, `C88_nutation`, `C89_nearest_number`, `C89_defined`, `C89_alternate`, `C90_phases_in_order`, `C90_monotone`, `C91_apsides_alternate`, `C91_parallax`, `C91_nodes_alternate`, `C92_A1_partial`, `C92_A1_violation`, `C93_mean_near_partial`, `C93_half_day_violation`, `C94_no_eclipse_missed`, `C94_example`, `C95_geometry`, `C95_ecliptic`, `C95_approximation`, `C96_limb`, `C97_violation`, `C97_range_partial`, `C98_saturn`, `C99_ecliptical`, `C100_violation`, `C100_finite_partial`, `C101_shadow`, `C101_center`, `C102_parallactic`, `C102_horizon`, `C102_horizon_nan`, `C103_ecliptic_horizon`, `C103_ecliptic_equator`, `C104_diurnal`, `C104_nan`, `C105_triple`, `C105_time`, `C105_length`, `C105_example`, `C105_centre_violation`, `C106_angle`, `C106_angleError_partial`, `C106_violation`, `C107_error`, `C107_angleError`, `C107_example`, `C108_decreasing`, `C108_order`, `C108_positive_partial`, `C108_zenith_violation`, `C108_gt15`, `C109_ends`, `C109_areas`, `C109_decreasing`, `C110_length4`, `C111_length1`, `C111_length2`, `C112_anomaly`, `C112_place`, `C112_obliquity`, `C113_astrometric`, `C113_lighttime`, `C113_planet`, `C113_equatorial`, `C114_ranges`, `C114_center`, `C114_radius`, `C114_ecc`, `C114_trueEquatorial`, `C114_apparentEquatorial`, `C114_vsop`, `C114_apparent_vsop`, `C114_apparent`, `C114_apparent_obliquity`, `C114_true2000`, `C115_smart_bound`, `C115_smart`, `C115_E`, `C116_obliquity`, `C116_range`, `C116_decreasing`, `C116_bounds`, `C116_approx`, `C116_inRA`, `C116_approx_obliquity`, `C117_disk`, `C117_position`, `C117_cycle`, `C118_xyz`, `C118_longitude`, `C118_position`, `C118_equinox`, `C118_norm`, `C118_J2000`, `C118_B1950`, `C119_planetary`, `C119_stellar`, `C119_star_is_planet`, `C119_uniform_partial`, `C119_violation`, `C120_minSep_partial`, `C120_rows`, `C120_violation`, `C121_tan_sep`, `C121_plane`, `C121_sound_partial`, `C121_uniform_partial`, `C121_constant_violation`, `C121_extrapolation_violation`, `C122_events`, `C122_elongations_stations`, `C123_nearest_violation`, `C124_order`, `C124_elongation`, `C125_declination`, `C125_alternate`, `C125_monotone`, `C125_nearest_violation`, `C126_bounds`, `C126_parallax`, `C126_moon_parallax`, `C126_range_violation`, `C127_range`, `C127_true`, `C127_true_range_violation`, `C128_optical`, `C128_lib`, `C128_physical`, `C128_axis`, `C129_helio`, `C129_sun_partial`, `C129_nutation_violation`, `C130_altitude`, `C130_zenith`, `C131_equator_partial`, `C131_afternoon_violation`, `C131_latitude_partial`, `C132_areas`, `C132_near_perihelion`, `C133_position2000`, `C133_position_of_date`, `C133_epoch`, `C134_rotation`, `C134_small`, `C135_linear`, `C135_instant`, `C135_jd_roundtrip`, `C135_time_roundtrip`, `C135_lib_exists`, `C136_years`, `C136_calendar`, `C137_vector`, `C137_frame`, `C137_latitudes`, `C137_axes`, `C137_position_angle`, `C138_deltaU_partial`, `C138_violation`, `C139_frame`, `C139_sun`, `C139_position_angle`, `C139_defect`, `C139_disk`, `C139_obliquity`, `C140_frame`, `C140_sun`, `C140_position_angle`, `C141_light_time`, `C141_planets`, `C142_triangle`, `C142_physical`, `C143_ellipse`, `C143_inner_moons_cross`, `C144_no_triple_transit`, `C145_alignment`, `C145_anomaly`, `C146_fk4_rotation`, `C146_b1950_partial`, `C146_b1950_violation`, `C146_angles`, `C147_year`, `C147_1800to1997`, `C147_1800to1899`, `C147_1900to1997`, `C147_documented`, `C147_seams`, `SatMoons.C148_elements`, `SatMoons.C148_seen`, `SatMoons.C148_corrected`, `SatMoons.C148_sight`, `SatMoons.C148_ring_plane`, `SatMoons.C148_outer`, `SatMoons.C148_positions`, `SatMoons.C149_distances`, `SatMoons.C149_order`, `SatMoons.C149_kepler`, `JupE5.C150_view`, `JupE5.C150_E5`, `JupE5.C150_sight`, `JupE5.C150_far`, `JupE5.C151_distances`, `JupE5.C151_latitudes`, `JupE5.C151_kepler`, `JupE5.C151_laplace`, `JupE5.C151_never_together`, `JupE5.C152_longitudes`, `JupE5.C152_radii`, `Pluto.C153_orbit`, `Pluto.C154_areas`, `Pluto.C155_turn`, `Pluto.C155_astrometric`, `C156_transit_partial`, `C156_wrap_violation`, `C156_approx`, `C157_lunar`, `C158_seasons`, `C158_seasons_early`, `C159_loop`, `C160_rho`, `C160_latitude`, `C160_linear`, `C160_degree`, `C161_inverse_square`, `C161_fading`, `C161_agree_partial`, `C161_violation`, `C161_venus_repaired`, `C162_violation`, `C162_diameter_partial`, `C163_violation`, `C163_cmp_partial`, `C164_frame`, `C164_ecliptic`, `C164_horizontal`, `C164_galactic`, `C164_meaning`, `C165_phase_arguments`, `C165_mean_phases`, `C165_apsis_arguments`, `C165_mean_apsides`, `C165_node_arguments`, `C165_nodes`, `C165_eclipse_arguments`, `C165_differences`, `C166_julian`, `C166_gregorian`, `C166_toCalendar`, `C166_roundtrip`, `C166_dayOfWeek`, `C166_midnight`, `C166_time`, `C166_time_roundtrip`, `C167_horner`, `C167_century`, `C167_elongation`, `C168_binaryRoot`, `C169_middle`, `C169_interpolate`, `C170_phases`, `C171_nodes`, `C172_angle`, `C172_illuminated`, `C173_mean`, `C173_equation_of_time`, `C174_anomaly`, `C174_radius`, `C175_planets`, `C175_earth`, `C176_consistent`, `C176_gt15`, `C177_ron_vondrak`, `C177_along_ecliptic`, `C177_of_date`, `C177_sun`, `C178_there_and_back`, `C178_ecliptic_there_and_back`, `C178_ecliptic_through_2000`, `C178_through_2000`, `C179_routes`, `C180_rate_partial`, `C180_rate_violation`, `C181_ring`, `C181_ring_moons`, `C181_jupiter`, `C181_sun`, `C182_solar`, `C182_lunar`, `C182_example`, `C183_phases`, `C183_mean`, `C183_apsides`, `C183_nodes`, `C183_example`, `C184_moon`, `C184_nutation`, `C184_obliquity`, `C184_example`, `C185_solar`, `C185_lunar`, `C185_example`, `Kepler64.C186_kepler3`, `Kepler64.C186_kepler1`, `Kepler64.C186_kepler1_converges`, `Kepler64.C186_kepler2`, `Kepler64.C186_kepler2b`, `Kepler64.C186_example`, `C186_direction`, `C186_direction_example`, `C187_solstices`, `C187_seasons`, `C187_deltaT_year`, `C187_deltaT_date`, `C187_sidereal`, `C187_example`, `C188_mercury_inf`, `C188_mercury_sup`, `C188_venus_inf`, `C188_mars_opp`, `C188_mars_station`, `C188_jupiter_opp`, `C188_saturn_opp`, `C188_saturn_conj`, `C188_uranus_opp`, `C188_neptune_opp`, `C188_elongation`, `C188_example`, `C189_north`, `C189_south`, `C189_perihelion`, `C189_aphelion`, `C189_example`, `C190_pauwels`, `C190_sep`, `C190_hav_partial`, `C190_hav_small_partial`, `C190_hav_violation`, `C190_example`, `C191_EclToEq_partial`, `C191_EqToEcl_partial`, `C191_HzToEq_partial`, `C191_EqToHz_partial`, `C191_zenith_violation`, `C191_example`, `C192_EqToEcl`, `C192_EclToEq`, `C192_EqToHz`, `C192_HzToEq`, `C192_example`, `C193_Precess`, `C193_EclPrecess`, `C193_example`, `C194_Reduce`, `C194_ReduceFK4`, `C194_example`, `C195_sun`, `C195_apparent`, `C195_pluto`, `C195_example`, `C196_latitude_radius`, `C196_longitude`, `C196_example`, `C197_linear`, `C197_func1`, `C197_example`, `C197_func1_example`, `C197_dates`, `C198_correlation_violation`, `C198_correlation_partial`, `C198_example`, `C199_through`, `C199_error`, `C199_example`, `C200_phase_violation`, `C200_fraction_violation`, `C200_phase_partial`, `C200_fraction_partial`, `C200_example`, `C201_mean`, `C201_inc_node`, `C201_example`, `Parabolic64v.C202_after_partial`, `Parabolic64v.C202_before_partial`, `Parabolic64v.C202_violation`, `Parabolic64v.C202_example`, `Length64v.C203_ends_partial`, `Length64v.C203_violation`, `Length64v.C203_length_partial`, `Length64v.C203_rounds_partial`, `Length64v.C203_example`, `Speed64v.C204_apsides`, `Speed64v.C204_number`, `Speed64v.C204_error`, `Speed64v.C204_example`, `Circle64v.C205_plain_partial`, `Circle64v.C205_violation`, `Circle64v.C205_example`, `Lengths64v.C206_length1`, `Lengths64v.C206_length2`, `Lengths64v.C206_example`, `Stellar64v.C207_sum`, `Stellar64v.C207_order`, `Stellar64v.C207_ratio`, `Stellar64v.C207_sumN`, `Stellar64v.C207_perm`, `Stellar64v.C207_example`, `Zero64v.C208_zero`, `Zero64v.C208_extremum`, `Zero64v.C208_example`, `Zero64v.C208_extremum_example`
* propext: 5 theorems
  `C01_floorDiv64_exceptions`, `C52_reduceElements`, `C52_properMotion3D`, `C54_errors`, `C55_example`
* Quot.sound, propext: 6 theorems
  `C11_easterJulian_period`, `C14_violation`, `C52_precess`, `C52_eclipticPrecess`, `C52_example`, `C53_zero_terms_violation`
