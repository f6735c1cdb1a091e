import Verif.Model.Moon
/-
Model of v3/refraction/refract.go (angles are real numbers of radians).
-/
namespace Verif.Model.Refraction

open Real Verif.Model

/-- `unit.AngleFromSec`. -/
noncomputable def fromSec (s : ℝ) : ℝ := s / 3600 * deg

/-- `unit.AngleFromMin`. -/
noncomputable def fromMin (m : ℝ) : ℝ := m / 60 * deg

/-- v3/refraction/refract.go:30-34 `Gt15True`, with the constants of lines 17, 18. -/
noncomputable def Gt15True (h0 : ℝ) : ℝ :=
  let t := tan (π / 2 - h0)
  fromSec 58.294 * t - fromSec 0.0668 * (t * t * t)

/-- v3/refraction/refract.go:43-47 `Gt15Apparent`, with the constants of lines 19, 20. -/
noncomputable def Gt15Apparent (h : ℝ) : ℝ :=
  let t := tan (π / 2 - h)
  fromSec 58.276 * t - fromSec 0.0824 * (t * t * t)

/-- v3/refraction/refract.go:57-61 `Bennett`. -/
noncomputable def Bennett (h0 : ℝ) : ℝ :=
  let hd := h0 / deg
  fromMin (1 / tan ((hd + 7.31 / (hd + 4.4)) * π / 180))

/-- v3/refraction/refract.go:69-72 `Bennett2`. -/
noncomputable def Bennett2 (h0 : ℝ) : ℝ :=
  let R := Bennett h0 / deg * 60
  fromMin (R - 0.06 * sin ((14.7 * R + 13) * π / 180))

/-- v3/refraction/refract.go:82-86 `Saemundsson`. -/
noncomputable def Saemundsson (h : ℝ) : ℝ :=
  let hd := h / deg
  fromMin (1.02 / tan ((hd + 10.3 / (hd + 5.11)) * π / 180))

end Verif.Model.Refraction
