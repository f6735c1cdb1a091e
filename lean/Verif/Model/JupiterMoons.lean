import Verif.Model.PlanetPos
import Verif.Go.Angle
/-
Models of jupiter.Physical2 and jupitermoons.Positions.  Exact real arithmetic.
-/
namespace Verif.Model.JupMoons

open Real Verif.Go Verif.Model

/-- The quantities computed by the first lines of both functions, from the days d since J2000.
v3/jupiter/jupiter.go:138-160, v3/jupitermoons/jupitermoons.go:25-46. -/
noncomputable def V (d : ℝ) : ℝ := 172.74 * deg + 0.00111588 * deg * d
noncomputable def M (d : ℝ) : ℝ := 357.529 * deg + 0.9856003 * deg * d
noncomputable def N (d : ℝ) : ℝ := 20.02 * deg + 0.0830853 * deg * d + 0.329 * deg * sin (V d)
noncomputable def J (d : ℝ) : ℝ := 66.115 * deg + 0.9025179 * deg * d - 0.329 * deg * sin (V d)
noncomputable def A (d : ℝ) : ℝ := 1.915 * deg * sin (M d) + 0.02 * deg * sin (2 * M d)
noncomputable def B (d : ℝ) : ℝ := 5.555 * deg * sin (N d) + 0.168 * deg * sin (2 * N d)
noncomputable def K (d : ℝ) : ℝ := J d + A d - B d
noncomputable def R (d : ℝ) : ℝ := 1.00014 - 0.01671 * cos (M d) - 0.00014 * cos (2 * M d)
noncomputable def r (d : ℝ) : ℝ := 5.20872 - 0.25208 * cos (N d) - 0.00611 * cos (2 * N d)
noncomputable def Δ (d : ℝ) : ℝ := sqrt (r d * r d + R d * R d - 2 * r d * R d * cos (K d))
noncomputable def ψ (d : ℝ) : ℝ := arcsin (R d / Δ d * sin (K d))
noncomputable def dd (d : ℝ) : ℝ := d - Δ d / 173
noncomputable def lam (d : ℝ) : ℝ := 34.35 * deg + 0.083091 * deg * d + 0.329 * deg * sin (V d) + B d
noncomputable def DS (d : ℝ) : ℝ := 3.12 * deg * sin (lam d + 42.8 * deg)
noncomputable def DE (d : ℝ) : ℝ :=
  DS d - 2.22 * deg * sin (ψ d) * cos (lam d + 22 * deg) - 1.3 * deg * (r d - Δ d) / Δ d * sin (lam d - 100.5 * deg)

open Classical in
/-- `Physical2`: (DS, DE, ω1, ω2).  v3/jupiter/jupiter.go:137-175. -/
noncomputable def Physical2 (jde : ℝ) : ℝ × ℝ × ℝ × ℝ :=
  let d := jde - 2451545
  let ω1 := 210.98 * deg + 877.8169088 * deg * dd d + ψ d - B d
  let ω2 := 187.23 * deg + 870.1869088 * deg * dd d + ψ d - B d
  let C := sin (ψ d / 2)
  let C := C * C
  let C := if sin (K d) > 0 then -C else C
  (DS d, DE d, mod1 (ω1 + C), mod1 (ω2 + C))

/-- The arguments u1 … u4.  v3/jupitermoons/jupitermoons.go:50-53. -/
noncomputable def u1 (d : ℝ) : ℝ := 163.8069 * deg + 203.4058646 * deg * dd d + ψ d - B d
noncomputable def u2 (d : ℝ) : ℝ := 358.414 * deg + 101.2916335 * deg * dd d + ψ d - B d
noncomputable def u3 (d : ℝ) : ℝ := 5.7176 * deg + 50.234518 * deg * dd d + ψ d - B d
noncomputable def u4 (d : ℝ) : ℝ := 224.8092 * deg + 21.48798 * deg * dd d + ψ d - B d

/-- The angles G and H.  v3/jupitermoons/jupitermoons.go:54-55. -/
noncomputable def G (d : ℝ) : ℝ := 331.18 * deg + 50.310482 * deg * dd d
noncomputable def H (d : ℝ) : ℝ := 87.45 * deg + 21.569231 * deg * dd d

/-- Corrected arguments and radii.  v3/jupitermoons/jupitermoons.go:56-67, 73. -/
noncomputable def U1 (d : ℝ) : ℝ := u1 d + 0.473 * deg * sin (2 * (u1 d - u2 d))
noncomputable def U2 (d : ℝ) : ℝ := u2 d + 1.065 * deg * sin (2 * (u2 d - u3 d))
noncomputable def U3 (d : ℝ) : ℝ := u3 d + 0.165 * deg * sin (G d)
noncomputable def U4 (d : ℝ) : ℝ := u4 d + 0.843 * deg * sin (H d)
noncomputable def r1 (d : ℝ) : ℝ := 5.9057 - 0.0244 * cos (2 * (u1 d - u2 d))
noncomputable def r2 (d : ℝ) : ℝ := 9.3966 - 0.0882 * cos (2 * (u2 d - u3 d))
noncomputable def r3 (d : ℝ) : ℝ := 14.9883 - 0.0216 * cos (G d)
noncomputable def r4 (d : ℝ) : ℝ := 26.3627 - 0.1939 * cos (H d)

/-- The closure `xy`.  v3/jupitermoons/jupitermoons.go:69-72. -/
noncomputable def xy (sDE u r : ℝ) : ℝ × ℝ := (r * sin u, -r * cos u * sDE)

/-- `Positions`.  v3/jupitermoons/jupitermoons.go:24-74. -/
noncomputable def Positions (jde : ℝ) : (ℝ × ℝ) × (ℝ × ℝ) × (ℝ × ℝ) × (ℝ × ℝ) :=
  let d := jde - 2451545
  let sDE := sin (DE d)
  (xy sDE (U1 d) (r1 d), xy sDE (U2 d) (r2 d), xy sDE (U3 d) (r3 d), xy sDE (U4 d) (r4 d))

end Verif.Model.JupMoons
