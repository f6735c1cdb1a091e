import Verif.Go.Angle
import Verif.Go.Ext
import Verif.Go.ExtMath
import Verif.Go.Float64
import Verif.Go.FloatExpr
import Verif.Go.Int
import Verif.Go.Ops
import Verif.Go.Real
import Verif.Lemmas.BaseInt
import Verif.Lemmas.Calendar
import Verif.Lemmas.CalendarSpec
import Verif.Lemmas.Easter
import Verif.Lemmas.Eclipse
import Verif.Lemmas.Ellipse
import Verif.Lemmas.Fit
import Verif.Lemmas.Hebrew
import Verif.Lemmas.HebrewGauss
import Verif.Lemmas.Interp
import Verif.Lemmas.InterpIter
import Verif.Lemmas.Islamic
import Verif.Lemmas.Iterate
import Verif.Lemmas.JulianReal
import Verif.Lemmas.Kepler
import Verif.Lemmas.Lagrange
import Verif.Lemmas.Laurent
import Verif.Lemmas.LaurentCos
import Verif.Lemmas.LaurentShift
import Verif.Lemmas.NearParabolic
import Verif.Lemmas.NearParabolicSeries
import Verif.Lemmas.Orbits
import Verif.Lemmas.Planet
import Verif.Lemmas.PolyComp
import Verif.Lemmas.PolyQ
import Verif.Lemmas.Rotation
import Verif.Lemmas.Series
import Verif.Lemmas.Sky
import Verif.Lemmas.Sphere
import Verif.Lemmas.Tangent
import Verif.Lemmas.TaylorModel
import Verif.Lemmas.TrigGrid
import Verif.Lemmas.TrigNum
import Verif.Lemmas.Vsop
import Verif.Model.Angle
import Verif.Model.Apparent
import Verif.Model.BaseInt
import Verif.Model.Circle
import Verif.Model.Circle64
import Verif.Model.Conjunction
import Verif.Model.Coord
import Verif.Model.Coord64
import Verif.Model.CoordMethods
import Verif.Model.Deltat
import Verif.Model.Easter
import Verif.Model.Eclipse
import Verif.Model.Elements64
import Verif.Model.Elliptic
import Verif.Model.Extrema64
import Verif.Model.Fit
import Verif.Model.Fit64
import Verif.Model.Globe
import Verif.Model.Illum
import Verif.Model.Illum64
import Verif.Model.Interp
import Verif.Model.Iterate
import Verif.Model.Jm
import Verif.Model.Julian
import Verif.Model.Julian64
import Verif.Model.JulianTime
import Verif.Model.JupiterE5
import Verif.Model.JupiterMoons
import Verif.Model.Kepler
import Verif.Model.Kepler64
import Verif.Model.Lagrange64
import Verif.Model.Length64
import Verif.Model.Lengths64
import Verif.Model.Line
import Verif.Model.Moon
import Verif.Model.Moon64
import Verif.Model.MoonPos
import Verif.Model.Nutation
import Verif.Model.Orbits
import Verif.Model.Parabolic64
import Verif.Model.Parallactic
import Verif.Model.Parallax
import Verif.Model.Perihelion
import Verif.Model.PlanetPhys
import Verif.Model.PlanetPos
import Verif.Model.Planetary
import Verif.Model.Planetary64
import Verif.Model.Pluto
import Verif.Model.Position64
import Verif.Model.Precess
import Verif.Model.Precess64
import Verif.Model.ReduceElements64
import Verif.Model.Refraction
import Verif.Model.Rest
import Verif.Model.Rise
import Verif.Model.RisePlanet
import Verif.Model.RonVondrak
import Verif.Model.Round64
import Verif.Model.SaturnMoons
import Verif.Model.Sep64
import Verif.Model.Solar
import Verif.Model.Solar64
import Verif.Model.Solstice
import Verif.Model.Solstice2
import Verif.Model.Speed64
import Verif.Model.Stellar64
import Verif.Model.Sundial
import Verif.Model.Times64
import Verif.Model.Vsop
import Verif.Model.Vsop64
import Verif.Model.Zero64
import Verif.Props.Aliasing
import Verif.Props.Angle
import Verif.Props.AnnualPrecession
import Verif.Props.Apparent
import Verif.Props.BaseInt
import Verif.Props.Binary
import Verif.Props.Circle
import Verif.Props.Circle64
import Verif.Props.Conjunction
import Verif.Props.Coord
import Verif.Props.Coord64
import Verif.Props.CoordLon64
import Verif.Props.CoordMethods
import Verif.Props.Deltat
import Verif.Props.DeltatPoly
import Verif.Props.Easter
import Verif.Props.Eclipse
import Verif.Props.Eclipse64
import Verif.Props.EclipseCert
import Verif.Props.EclipseMoon
import Verif.Props.ElementEquinox
import Verif.Props.Elements64
import Verif.Props.Elliptic
import Verif.Props.Eqtime
import Verif.Props.Extrema64
import Verif.Props.Fit
import Verif.Props.Fit64
import Verif.Props.FixedPlanes
import Verif.Props.Globe
import Verif.Props.Globe2
import Verif.Props.Illum
import Verif.Props.Illum64
import Verif.Props.Interp
import Verif.Props.InterpExt5
import Verif.Props.InterpZero
import Verif.Props.Iterate
import Verif.Props.JmJewish
import Verif.Props.JmMoslem
import Verif.Props.Julian
import Verif.Props.Julian64
import Verif.Props.JulianTime
import Verif.Props.Jupiter
import Verif.Props.JupiterE5
import Verif.Props.JupiterMoons
import Verif.Props.Kepler
import Verif.Props.Kepler64
import Verif.Props.Kepler64Dir
import Verif.Props.Lagrange
import Verif.Props.Lagrange64
import Verif.Props.Len3For
import Verif.Props.Length64
import Verif.Props.Length64Acc
import Verif.Props.Lengths64
import Verif.Props.LightTime
import Verif.Props.Line
import Verif.Props.Magnitude
import Verif.Props.Mars
import Verif.Props.Moon
import Verif.Props.Moon64
import Verif.Props.MoonArgs
import Verif.Props.MoonPhys
import Verif.Props.MoonPos
import Verif.Props.MoonSun
import Verif.Props.Motion
import Verif.Props.NearParabolic
import Verif.Props.NearParabolicTime
import Verif.Props.NodeCert
import Verif.Props.NodeMoon
import Verif.Props.Nutation
import Verif.Props.NutationCert
import Verif.Props.Orbits
import Verif.Props.Parabolic64
import Verif.Props.Parallactic
import Verif.Props.Parallax
import Verif.Props.Perihelion
import Verif.Props.PerihelionMean
import Verif.Props.PhaseAngle
import Verif.Props.PhaseCert
import Verif.Props.PhaseMoon
import Verif.Props.PlanetPos
import Verif.Props.Planetary
import Verif.Props.Planetary64
import Verif.Props.PlanetaryMean
import Verif.Props.Pluto
import Verif.Props.Position64
import Verif.Props.Precess
import Verif.Props.Precess64
import Verif.Props.PrecessCert
import Verif.Props.PrecessRoutes
import Verif.Props.ReduceElements64
import Verif.Props.Refraction
import Verif.Props.RefractionInverse
import Verif.Props.Rise
import Verif.Props.RisePlanet
import Verif.Props.RonVondrak
import Verif.Props.Round64
import Verif.Props.SaturnMoons
import Verif.Props.SaturnRing
import Verif.Props.Sep64
import Verif.Props.SiderealSun
import Verif.Props.Solar
import Verif.Props.Solar64
import Verif.Props.SolarApparent
import Verif.Props.Solarxyz
import Verif.Props.Solstice
import Verif.Props.Solstice2
import Verif.Props.SolsticeSun
import Verif.Props.Speed64
import Verif.Props.Stellar64
import Verif.Props.SunKepler
import Verif.Props.Sundial
import Verif.Props.Times64
import Verif.Props.Vsop
import Verif.Props.Vsop64
import Verif.Props.Zero64
import Verif.Spec.Calendar
import Verif.Spec.Easter
import Verif.Spec.Eclipse
import Verif.Spec.Fit
import Verif.Spec.Hebrew
import Verif.Spec.Interp
import Verif.Spec.Islamic
import Verif.Spec.Orbit
import Verif.Spec.Planet
import Verif.Spec.Rotation
import Verif.Spec.Sphere
import Verif.Spec.Tangent
import Verif.Spec.Vsop
