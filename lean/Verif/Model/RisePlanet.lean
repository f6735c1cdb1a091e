import Verif.Model.Rise
import Verif.Model.Julian
/-
Model of the functions of package rise for planets, and of Stdh0Lunar.  Exact real arithmetic.
-/
namespace Verif.Model.Rise

open Real Verif.Go Verif.Model Verif.Model.Julian

/-- `Stdh0Lunar`; p is the horizontal parallax.  v3/rise/rise.go:31, 44-48. -/
noncomputable def Stdh0Lunar (p : ℝ) : ℝ := p * 0.7275 - 34 / 60 * deg

/-- `ApproxPlanet`; `pos` gives the right ascension and declination (elliptic.Position), `nut` the nutation in right ascension.  v3/rise/rise.go:172-176. -/
noncomputable def ApproxPlanet (pos : ℝ → ℝ × ℝ) (nut : ℝ → ℝ) (yr mon day : ℤ) (p : Coord) : Except Err Three :=
  let jd := CalendarGregorianToJD yr mon day
  ApproxTimes p Stdh0Stellar (Sidereal.Apparent0UT nut jd) (pos jd).1 (pos jd).2

/-- `Planet`; `ΔT` is deltat.Interp10A.  v3/rise/rise.go:189-198. -/
noncomputable def Planet (pos : ℝ → ℝ × ℝ) (nut ΔT : ℝ → ℝ) (yr mon day : ℤ) (p : Coord) : Except Err Three :=
  let jd := CalendarGregorianToJD yr mon day
  Times p (ΔT jd) Stdh0Stellar (Sidereal.Apparent0UT nut jd) (pos (jd - 1)).1 (pos jd).1 (pos (jd + 1)).1 (pos (jd - 1)).2 (pos jd).2 (pos (jd + 1)).2

end Verif.Model.Rise
