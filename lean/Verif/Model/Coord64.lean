import Verif.Model.Sep64
/-
The conversions of package coord (v3/coord/coord.go) in double precision.  Angles in radians.  The argument of the
arc sine is the expression of the code, operation by operation; a conversion is the relation between its arguments and what it may return for that coordinate.
-/
namespace Verif.Model.Coord64

open Verif.Go.F64 Verif.Go.F64.Ex

/-- `math.Asin`: `none` is the NaN it returns for an argument outside [-1, 1]. -/
noncomputable def asin (f : Sep64.Inv) (x : ℝ) : Option ℝ := if |x| ≤ 1 then some (f.asin x) else none

/-- The arguments as a list. -/
def vars (a : List ℝ) (i : ℕ) : ℝ := a.getD i 0

/-- The coordinate computed as the arc sine of e. -/
def Lat (l : Trig) (f : Sep64.Inv) (e : Ex) (a : List ℝ) (out : Option ℝ) : Prop := ∃ x, Run l (vars a) e x ∧ out = asin f x

/-- Argument of the arc sine in `EqToEcl`; variables α, δ, ε.  v3/coord/coord.go:66-72. -/
def sβ : Ex := sin (v 1) * cos (v 2) - cos (v 1) * sin (v 2) * sin (v 0)

/-- Argument of the arc sine in `EclToEq`; variables λ, β, ε.  v3/coord/coord.go:96-102. -/
def sδ : Ex := sin (v 1) * cos (v 2) + cos (v 1) * sin (v 2) * sin (v 0)

/-- Argument of the arc sine in `HzToEq`; variables A, h, φ.  v3/coord/coord.go:130-138. -/
def sδh : Ex := sin (v 2) * sin (v 1) - cos (v 2) * cos (v 1) * cos (v 0)

/-- Argument of the arc sine in `EqToHz`; variables st, ψ, α, δ, φ.  v3/coord/coord.go:213-221. -/
def sh : Ex := sin (v 4) * sin (v 3) + cos (v 4) * cos (v 3) * cos (v 0 - v 1 - v 2)

/-- Latitude of `EqToEcl`.  v3/coord/coord.go:66-72. -/
def EqToEclLat (l : Trig) (f : Sep64.Inv) (α δ ε : ℝ) : Option ℝ → Prop := Lat l f sβ [α, δ, ε]

/-- Declination of `EclToEq`.  v3/coord/coord.go:96-102. -/
def EclToEqDec (l : Trig) (f : Sep64.Inv) (lon β ε : ℝ) : Option ℝ → Prop := Lat l f sδ [lon, β, ε]

/-- Declination of `HzToEq`.  v3/coord/coord.go:130-138. -/
def HzToEqDec (l : Trig) (f : Sep64.Inv) (A h φ : ℝ) : Option ℝ → Prop := Lat l f sδh [A, h, φ]

/-- Altitude of `EqToHz`; st, ψ, α in radians.  v3/coord/coord.go:213-221. -/
def EqToHzAlt (l : Trig) (f : Sep64.Inv) (st ψ α δ φ : ℝ) : Option ℝ → Prop := Lat l f sh [st, ψ, α, δ, φ]

/-- The longitude computed as `math.Atan2` of y and x. -/
def Lon (l : Trig) (f : Sep64.Inv) (y x : Ex) (a : List ℝ) (out : ℝ) : Prop := ∃ b c, Run l (vars a) y b ∧ Run l (vars a) x c ∧ out = f.atan2 b c

/-- Longitude of `EqToEcl`.  v3/coord/coord.go:66-72. -/
def EqToEclLon (l : Trig) (f : Sep64.Inv) (α δ ε : ℝ) : ℝ → Prop :=
  Lon l f (sin (v 0) * cos (v 2) + (sin (v 1) / cos (v 1)) * sin (v 2)) (cos (v 0)) [α, δ, ε]

/-- Right ascension of `EclToEq`; `red` is unit.RAFromRad.  v3/coord/coord.go:96-102. -/
def EclToEqRA (l : Trig) (f : Sep64.Inv) (red : ℝ → ℝ) (lon β ε out : ℝ) : Prop :=
  ∃ a, Lon l f (sin (v 0) * cos (v 2) - (sin (v 1) / cos (v 1)) * sin (v 2)) (cos (v 0)) [lon, β, ε] a ∧ out = red a

/-- Right ascension of `HzToEq`; `red` is unit.RAFromRad.  v3/coord/coord.go:130-138. -/
def HzToEqRA (l : Trig) (f : Sep64.Inv) (red : ℝ → ℝ) (A h φ ψ st out : ℝ) : Prop :=
  ∃ H, Lon l f (sin (v 0)) (cos (v 0) * sin (v 2) + (sin (v 1) / cos (v 1)) * cos (v 2)) [A, h, φ] H ∧ out = red (fl (fl (st - ψ) - H))

/-- Azimuth of `EqToHz`; st, ψ, α in radians.  v3/coord/coord.go:213-221. -/
def EqToHzAz (l : Trig) (f : Sep64.Inv) (st ψ α δ φ : ℝ) : ℝ → Prop :=
  Lon l f (sin (v 0 - v 1 - v 2)) (cos (v 0 - v 1 - v 2) * sin (v 4) - (sin (v 3) / cos (v 3)) * cos (v 4)) [st, ψ, α, δ, φ]

end Verif.Model.Coord64
