import Verif.Go.ExtMath
import Verif.Model.Moon
/-
Model of package sundial.  Exact real arithmetic; the hour angle of sunrise and the coordinates of the points are extended numbers,
because the arc cosine may be out of its domain and a divisor may be zero.
-/
namespace Verif.Model.Sundial

open Real Verif.Go Classical

/-- `Point`.  v3/sundial/sundial.go:14-16. -/
structure Point where
  X : EF
  Y : EF

/-- `Line`.  v3/sundial/sundial.go:19-22. -/
structure Line where
  Hour : ℕ
  Points : List Point

/-- `m`, in degrees.  v3/sundial/sundial.go:24. -/
noncomputable def m : List ℝ := [-23.44, -20.15, -11.47, 0, 11.47, 20.15, 23.44]

/-- `H`.  v3/sundial/sundial.go:47, 90, 130, 169. -/
noncomputable def hourAngle (i : ℕ) : ℝ := ((i : ℝ) - 12) * 15 * π / 180

/-- `tδ`.  v3/sundial/sundial.go:51. -/
noncomputable def tanδ (d : ℝ) : ℝ := tan (d * π / 180)

/-- The test `aH > H0`.  v3/sundial/sundial.go:52-55. -/
def down (tφ H tδ : ℝ) : Prop := EF.acos (EF.fin (-tφ * tδ)) < EF.fin |H|

/-- The loop over hours and declinations: hour lines without points are dropped.  v3/sundial/sundial.go:45-67. -/
noncomputable def lines (f : ℕ → ℝ → Option Point) : List Line :=
  (List.range 24).filterMap fun i =>
    let pts := m.filterMap (f i)
    if pts.length > 0 then some ⟨i, pts⟩ else none

/-- The point of `General` for an hour and a declination.  v3/sundial/sundial.go:46-62. -/
noncomputable def generalPoint (φ D a z : ℝ) (i : ℕ) (d : ℝ) : Option Point :=
  let tφ := sin φ / cos φ
  let P := sin φ * cos z - cos φ * sin z * cos D
  let H := hourAngle i
  let tδ := tanδ d
  if down tφ H tδ then none
  else
    let Q := sin D * sin z * sin H + (cos φ * cos z + sin φ * sin z * cos D) * cos H + P * tδ
    if Q < 0 then none
    else
      let Nx := cos D * sin H - sin D * (sin φ * cos H - cos φ * tδ)
      let Ny := cos z * sin D * sin H - (cos φ * sin z - sin φ * cos z * cos D) * cos H - (sin φ * sin z + cos φ * cos z * cos D) * tδ
      some ⟨EF.fin (a * Nx) / EF.fin Q, EF.fin (a * Ny) / EF.fin Q⟩

/-- Results of `General`. -/
structure General where
  lines : List Line
  centerX : ℝ
  centerY : ℝ
  u : ℝ
  ψ : ℝ

/-- `General`.  v3/sundial/sundial.go:39-74.  (For P = 0, a plane parallel to the axis, the centre is at infinity: outside the model.) -/
noncomputable def general (φ D a z : ℝ) : General :=
  let P := sin φ * cos z - cos φ * sin z * cos D
  { lines := lines (generalPoint φ D a z)
    centerX := a / P * cos φ * sin D
    centerY := -a / P * (sin φ * sin z + cos φ * cos z * cos D)
    u := a / |P|
    ψ := arcsin |P| }

/-- The point of `Equatorial` for an hour and a declination: on the north side (true) or the south side.  v3/sundial/sundial.go:87-106. -/
noncomputable def equatorialPoint (φ a : ℝ) (i : ℕ) (d : ℝ) : Option (Bool × Point) :=
  let tφ := tan φ
  let H := hourAngle i
  let tδ := tanδ d
  if down tφ H tδ then none
  else
    let x := EF.fin (-a * sin H) / EF.fin tδ
    let yy := EF.fin (a * cos H) / EF.fin tδ
    if tδ < 0 then some (false, ⟨x, yy⟩) else some (true, ⟨x, -yy⟩)

/-- `Equatorial`: north side and south side.  v3/sundial/sundial.go:85-115. -/
noncomputable def equatorial (φ a : ℝ) : List Line × List Line :=
  let side (b : Bool) (i : ℕ) (d : ℝ) : Option Point :=
    match equatorialPoint φ a i d with
    | some (c, p) => if b = c then some p else none
    | none => none
  (lines (side true), lines (side false))

/-- The point of `Horizontal` for an hour and a declination.  v3/sundial/sundial.go:129-142. -/
noncomputable def horizontalPoint (φ a : ℝ) (i : ℕ) (d : ℝ) : Option Point :=
  let tφ := sin φ / cos φ
  let H := hourAngle i
  let tδ := tanδ d
  if down tφ H tδ then none
  else
    let Q := cos φ * cos H + sin φ * tδ
    some ⟨EF.fin (a * sin H) / EF.fin Q, EF.fin (a * (sin φ * cos H - cos φ * tδ)) / EF.fin Q⟩

/-- Results of `Horizontal` and `Vertical`. -/
structure Simple where
  lines : List Line
  centerX : ℝ
  centerY : ℝ
  u : ℝ

/-- `Horizontal`.  v3/sundial/sundial.go:125-151. -/
noncomputable def horizontal (φ a : ℝ) : Simple :=
  { lines := lines (horizontalPoint φ a), centerX := 0, centerY := -a / (sin φ / cos φ), u := a / |sin φ| }

/-- The point of `Vertical` for an hour and a declination.  v3/sundial/sundial.go:168-184. -/
noncomputable def verticalPoint (φ D a : ℝ) (i : ℕ) (d : ℝ) : Option Point :=
  let tφ := sin φ / cos φ
  let H := hourAngle i
  let tδ := tanδ d
  if down tφ H tδ then none
  else
    let Q := sin D * sin H + sin φ * cos D * cos H - cos φ * cos D * tδ
    if Q < 0 then none
    else some ⟨EF.fin (a * (cos D * sin H - sin φ * sin D * cos H + cos φ * sin D * tδ)) / EF.fin Q,
      EF.fin (-a * (cos φ * cos H + sin φ * tδ)) / EF.fin Q⟩

/-- `Vertical`.  v3/sundial/sundial.go:163-194. -/
noncomputable def vertical (φ D a : ℝ) : Simple :=
  { lines := lines (verticalPoint φ D a), centerX := -a * sin D / cos D, centerY := a * (sin φ / cos φ) / cos D
    u := a / |cos φ * cos D| }

end Verif.Model.Sundial
