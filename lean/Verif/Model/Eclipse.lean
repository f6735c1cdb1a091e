import Verif.Model.Moon
/-
Model of package eclipse (v3/eclipse/eclipse.go).  Exact real arithmetic; times of the semidurations in hours.
-/
namespace Verif.Model.Eclipse

open Real Classical

/-- The results of `g`. -/
structure G where
  eclipse : Bool
  jmax : ℝ
  γ : ℝ
  u : ℝ
  M' : ℝ

/-- `F`.  v3/eclipse/eclipse.go:19-20. -/
noncomputable def argF (T : ℝ) : ℝ :=
  hornerR T [160.7108 * deg, 390.67050284 * deg / Moonphase.ck, -0.0016118 * deg, -0.00000227 * deg, 0.000000011 * deg]

/-- `E`.  v3/eclipse/eclipse.go:25. -/
noncomputable def argE (T : ℝ) : ℝ := hornerR T [1, -0.002516, -0.0000074]

/-- `M`.  v3/eclipse/eclipse.go:26-27. -/
noncomputable def argM (T : ℝ) : ℝ := hornerR T [2.5534 * deg, 29.1053567 * deg / Moonphase.ck, -0.0000014 * deg, -0.00000011 * deg]

/-- `Mʹ`.  v3/eclipse/eclipse.go:28-29. -/
noncomputable def argM' (T : ℝ) : ℝ :=
  hornerR T [201.5643 * deg, 385.81693528 * deg / Moonphase.ck, 0.0107582 * deg, 0.00001238 * deg, -0.000000058 * deg]

/-- `Ω`.  v3/eclipse/eclipse.go:30-31. -/
noncomputable def argΩ (T : ℝ) : ℝ := hornerR T [124.7746 * deg, -1.56375588 * deg / Moonphase.ck, 0.0020672 * deg, 0.00000215 * deg]

/-- `A1`.  v3/eclipse/eclipse.go:34. -/
noncomputable def argA1 (T : ℝ) : ℝ := hornerR T [299.77 * deg, 0.107408 * deg / Moonphase.ck, -0.009173 * deg]

/-- `P`.  v3/eclipse/eclipse.go:53-59. -/
noncomputable def P (E M M' F1 : ℝ) : ℝ :=
  0.207 * sin M * E + 0.0024 * sin (2 * M) * E + -0.0392 * sin M' + 0.0116 * sin (2 * M') + -0.0073 * sin (M' + M) * E +
    0.0067 * sin (M' - M) * E + 0.0118 * sin (2 * F1)

/-- `Q`.  v3/eclipse/eclipse.go:60-65. -/
noncomputable def Q (E M M' : ℝ) : ℝ :=
  5.2207 + -0.0048 * cos M * E + 0.002 * cos (2 * M) * E + -0.3299 * cos M' + -0.006 * cos (M' + M) * E + 0.0041 * cos (M' - M) * E

/-- `γ`.  v3/eclipse/eclipse.go:66-68. -/
noncomputable def gammaOf (E M M' F1 : ℝ) : ℝ := (P E M M' F1 * cos F1 + Q E M M' * sin F1) * (1 - 0.0048 * |cos F1|)

/-- `u`.  v3/eclipse/eclipse.go:69-73. -/
noncomputable def uOf (E M M' : ℝ) : ℝ :=
  0.0059 + 0.0046 * cos M * E + -0.0182 * cos M' + 0.0004 * cos (2 * M') + -0.0005 * cos (M + M')

/-- `g`.  v3/eclipse/eclipse.go:15-75. -/
noncomputable def g (k jm c1 c2 : ℝ) : G :=
  let T := k * Moonphase.ck
  let F := argF T
  if |sin F| > 0.36 then ⟨false, 0, 0, 0, 0⟩
  else
    let E := argE T
    let M := argM T
    let M' := argM' T
    let Ω := argΩ T
    let F1 := F - 0.02665 * deg * sin Ω
    let A1 := argA1 T
    let jmax := jm + series sin [(c1, M'), (c2 * E, M), (0.0161, 2 * M'), (-0.0097, 2 * F1), (0.0073 * E, M' - M), (-0.005 * E, M' + M),
      (-0.0023, M' - 2 * F1), (0.0021 * E, 2 * M), (0.0012, M' + 2 * F1), (0.0006 * E, 2 * M' + M), (-0.0004, 3 * M'), (-0.0003 * E, M + 2 * F1),
      (0.0003, A1), (-0.0002 * E, M - 2 * F1), (-0.0002 * E, 2 * M' - M), (-0.0002, Ω)]
    ⟨true, jmax, gammaOf E M M' F1, uOf E M M', M'⟩

/-- The eclipse types.  v3/eclipse/eclipse.go:79-87. -/
inductive Kind where
  | None | Partial | Annular | AnnularTotal | Penumbral | Umbral | Total
deriving DecidableEq

/-- The results of `Solar`. -/
structure SolarResult where
  kind : Kind
  central : Bool
  jmax : ℝ
  γ : ℝ
  u : ℝ
  p : ℝ
  mag : ℝ

/-- The part of `Solar` after the call of `g`.  v3/eclipse/eclipse.go:122-156. -/
noncomputable def solarOf (r : G) : SolarResult :=
  let p := r.u + 0.5461
  if r.eclipse = false then ⟨.None, false, r.jmax, r.γ, r.u, p, 0⟩
  else
    let aγ := |r.γ|
    if aγ > 1.5433 + r.u then ⟨.None, false, r.jmax, r.γ, r.u, p, 0⟩
    else
      let central := aγ < 0.9972
      let kind :=
        if ¬ central then
          if aγ < 1.026 then (if aγ < 0.9972 + |r.u| then Kind.Total else Kind.Partial) else Kind.Partial
        else if r.u < 0 then Kind.Total
        else if r.u > 0.0047 then Kind.Annular
        else if r.u < 0.00464 * sqrt (1 - r.γ * r.γ) then Kind.AnnularTotal else Kind.Annular
      let mag := if kind = Kind.Partial then (1.5433 + r.u - aγ) / (0.5461 + 2 * r.u) else 0
      ⟨kind, decide central, r.jmax, r.γ, r.u, p, mag⟩

/-- `Solar`.  v3/eclipse/eclipse.go:119-156. -/
noncomputable def Solar (year : ℝ) : SolarResult := solarOf (g (Moonphase.snap year 0) (Moonphase.MeanNew year) (-0.4075) 0.1721)

/-- The results of `Lunar`; semidurations in hours. -/
structure LunarResult where
  kind : Kind
  jmax : ℝ
  γ : ℝ
  ρ : ℝ
  σ : ℝ
  mag : ℝ
  sdTotal : ℝ
  sdPartial : ℝ
  sdPenumbral : ℝ

/-- The part of `Lunar` after the call of `g`.  v3/eclipse/eclipse.go:185-220. -/
noncomputable def lunarOf (r : G) : LunarResult :=
  if r.eclipse = false then ⟨.None, r.jmax, r.γ, 0, 0, 0, 0, 0, 0⟩
  else
    let u := r.u
    let ρ := 1.2848 + u
    let σ := 0.7403 - u
    let aγ := |r.γ|
    let mag := (1.0128 - u - aγ) / 0.545
    let mag' := (1.5573 + u - aγ) / 0.545
    let p := 1.0128 - u
    let t := 0.4678 - u
    let n := 0.5458 + 0.04 * cos r.M'
    let γ2 := r.γ * r.γ
    let h := 1.5573 + u
    let sdT := sqrt (t * t - γ2) / n
    let sdP := sqrt (p * p - γ2) / n
    let sdH := sqrt (h * h - γ2) / n
    if mag > 1 then ⟨.Total, r.jmax, r.γ, ρ, σ, mag, sdT, sdP, sdH⟩
    else if mag > 0 then ⟨.Umbral, r.jmax, r.γ, ρ, σ, mag, 0, sdP, sdH⟩
    else if mag' < 0 then ⟨.None, r.jmax, r.γ, ρ, σ, mag', 0, 0, 0⟩
    else ⟨.Penumbral, r.jmax, r.γ, ρ, σ, mag', 0, 0, sdH⟩

/-- `Lunar`.  v3/eclipse/eclipse.go:180-220. -/
noncomputable def Lunar (year : ℝ) : LunarResult := lunarOf (g (Moonphase.snap year 0.5) (Moonphase.MeanFull year) (-0.4065) 0.1727)

end Verif.Model.Eclipse
