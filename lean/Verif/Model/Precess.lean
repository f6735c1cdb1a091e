import Verif.Go.Ops
/-
Model of package precess (v3/precess/precess.go) and of v3/elementequinox/elementequinox.go, over an arbitrary arithmetic
(Verif/Go/Ops.lean).  Angles are in radians; `unit.RAFromRad`, `RA.Add` and `Angle.Mod1` reduce by `Ops.mod1`
(external package unit).  First the values computed (`…Val`), then the statements as they act on memory: a heap maps
addresses to structs, and every assignment through a pointer is one write of one field.  `base.SmallAngle` is 10 minutes of
arc scaled to radians, `base.CosSmallAngle` its cosine (v3/base/math.go:12-15).
-/
set_option linter.dupNamespace false

namespace Verif.Model.Precess

open Verif.Go

variable {F : Type} [Add F] [Sub F] [Mul F] [Div F] [Neg F] [Ops F]

/-- `coord.Equatorial` (RA, Dec).  v3/coord/coord.go:75-78. -/
@[ext] structure Equatorial (F : Type) where
  RA : F
  Dec : F

/-- `coord.Ecliptic` (Lon, Lat).  v3/coord/coord.go:43-46. -/
@[ext] structure Ecliptic (F : Type) where
  Lon : F
  Lat : F

/-- `elementequinox.Elements`.  v3/elementequinox/elementequinox.go:20-24. -/
@[ext] structure Elements (F : Type) where
  Inc : F
  Peri : F
  Node : F

/-- `base.Horner` with three coefficients.  v3/base/math.go:27-35. -/
def horner3 (x a b c : F) : F := (c * x + b) * x + a

/-- `const d = π/180`.  v3/precess/precess.go:99. -/
def deg : F := Ops.pi / Ops.lit 180

/-- `const s = d/3600`.  v3/precess/precess.go:100. -/
def sec : F := deg / Ops.lit 3600

/-- `base.CosSmallAngle`.  v3/base/math.go:13-14. -/
def cosSmallAngle : F := Ops.cos (Ops.lit 10 * (Ops.pi / Ops.lit 10800))

/-! ### Values -/

/-- `mn`.  v3/precess/precess.go:67-73. -/
def mn (epochFrom epochTo : F) : F × F × F :=
  let T := (epochTo - epochFrom) * Ops.lit (1 / 100)
  ((Ops.lit 3.07496 + Ops.lit 0.00186 * T) * (Ops.lit 15 * sec), (Ops.lit 1.33621 - Ops.lit 0.00057 * T) * (Ops.lit 15 * sec),
    (Ops.lit 20.0431 - Ops.lit 0.0085 * T) * sec)

/-- `ApproxAnnualPrecession`.  v3/precess/precess.go:57-64. -/
def ApproxAnnualPrecession (eq : Equatorial F) (epochFrom epochTo : F) : F × F :=
  let c := mn epochFrom epochTo
  (c.1 + c.2.1 * (Ops.sin eq.RA * Ops.tan eq.Dec), c.2.2 * Ops.cos eq.RA)

/-- `Precessor`.  v3/precess/precess.go:93-97. -/
structure Precessor (F : Type) where
  ζ : F
  z : F
  sθ : F
  cθ : F

/-- The angles (ζ, z, θ) of `NewPrecessor`.  v3/precess/precess.go:105-144. -/
def precAngles (epochFrom epochTo : F) : F × F × F :=
  let T := (epochFrom - Ops.lit 2000) * Ops.lit (1 / 100)
  let ne := ¬ Ops.eq epochFrom (Ops.lit 2000)
  let ζ0 := if ne then horner3 T (Ops.lit 2306.2181 * sec) (Ops.lit 1.39656 * sec) (Ops.lit (-0.000139) * sec) else Ops.lit 2306.2181 * sec
  let ζ1 := if ne then Ops.lit 0.30188 * sec - Ops.lit 0.000344 * sec * T else Ops.lit 0.30188 * sec
  let z0 := if ne then horner3 T (Ops.lit 2306.2181 * sec) (Ops.lit 1.39656 * sec) (Ops.lit (-0.000139) * sec) else Ops.lit 2306.2181 * sec
  let z1 := if ne then Ops.lit 1.09468 * sec + Ops.lit 0.000066 * sec * T else Ops.lit 1.09468 * sec
  let θ0 := if ne then horner3 T (Ops.lit 2004.3109 * sec) (Ops.lit (-0.8533) * sec) (Ops.lit (-0.000217) * sec) else Ops.lit 2004.3109 * sec
  let θ1 := if ne then Ops.lit (-0.42665) * sec - Ops.lit 0.000217 * sec * T else Ops.lit (-0.42665) * sec
  let t := (epochTo - epochFrom) * Ops.lit (1 / 100)
  (horner3 t ζ0 ζ1 (Ops.lit 0.017998 * sec) * t, horner3 t z0 z1 (Ops.lit 0.018203 * sec) * t,
    horner3 t θ0 θ1 (Ops.lit (-0.041833) * sec) * t)

/-- `NewPrecessor`.  v3/precess/precess.go:119-147. -/
def NewPrecessor (epochFrom epochTo : F) : Precessor F :=
  let a := precAngles epochFrom epochTo
  ⟨a.1, a.2.1, Ops.sin a.2.2, Ops.cos a.2.2⟩

/-- The declination from A, B, C.  v3/precess/precess.go:161-168, 254-261. -/
def latOf (A B C : F) : F :=
  if Ops.lt (Ops.abs C) cosSmallAngle then Ops.asin C
  else if Ops.lt C (Ops.lit 0) then -Ops.acos (Ops.hypot A B) else Ops.acos (Ops.hypot A B)

/-- `Precessor.Precess`, the value.  v3/precess/precess.go:153-170. -/
def precessVal (p : Precessor F) (eq : Equatorial F) : Equatorial F :=
  let sδ := Ops.sin eq.Dec
  let cδ := Ops.cos eq.Dec
  let sαζ := Ops.sin (eq.RA + p.ζ)
  let cαζ := Ops.cos (eq.RA + p.ζ)
  let A := cδ * sαζ
  let B := p.cθ * cδ * cαζ - p.sθ * sδ
  let C := p.sθ * cδ * cαζ + p.cθ * sδ
  ⟨Ops.mod1 (Ops.atan2 A B + p.z), latOf A B C⟩

/-- `Position`, the value.  v3/precess/precess.go:180-186. -/
def positionVal (eq : Equatorial F) (epochFrom epochTo mα mδ : F) : Equatorial F :=
  let t := epochTo - epochFrom
  precessVal (NewPrecessor epochFrom epochTo) ⟨Ops.mod1 (eq.RA + mα * t), eq.Dec + mδ * t⟩

/-- `ApproxPosition`, the value.  v3/precess/precess.go:80-86. -/
def approxPositionVal (eq : Equatorial F) (epochFrom epochTo mα mδ : F) : Equatorial F :=
  let Δ := ApproxAnnualPrecession eq epochFrom epochTo
  let dy := epochTo - epochFrom
  ⟨Ops.mod1 (eq.RA + (Δ.1 + mα) * dy), eq.Dec + (Δ.2 + mδ) * dy⟩

/-- `EclipticPrecessor`.  v3/precess/precess.go:193-196. -/
structure EclipticPrecessor (F : Type) where
  sη : F
  cη : F
  π : F
  p : F

/-- The angles (η, Π, p) of `NewEclipticPrecessor`.  v3/precess/precess.go:198-237. -/
def eclAngles (epochFrom epochTo : F) : F × F × F :=
  let T := (epochFrom - Ops.lit 2000) * Ops.lit (1 / 100)
  let ne := ¬ Ops.eq epochFrom (Ops.lit 2000)
  let η0 := if ne then horner3 T (Ops.lit 47.0029 * sec) (Ops.lit (-0.06603) * sec) (Ops.lit 0.000598 * sec) else Ops.lit 47.0029 * sec
  let η1 := if ne then Ops.lit (-0.03302) * sec + Ops.lit 0.000598 * sec * T else Ops.lit (-0.03302) * sec
  let π0 := if ne then horner3 T (Ops.lit 174.876384 * deg) (Ops.lit 3289.4789 * sec) (Ops.lit 0.60622 * sec) else Ops.lit 174.876384 * deg
  let π1 := if ne then Ops.lit (-869.8089) * sec - Ops.lit 0.50491 * sec * T else Ops.lit (-869.8089) * sec
  let p0 := if ne then horner3 T (Ops.lit 5029.0966 * sec) (Ops.lit 2.22226 * sec) (Ops.lit (-0.000042) * sec) else Ops.lit 5029.0966 * sec
  let p1 := if ne then Ops.lit 1.11113 * sec - Ops.lit 0.000042 * sec * T else Ops.lit 1.11113 * sec
  let t := (epochTo - epochFrom) * Ops.lit (1 / 100)
  (horner3 t η0 η1 (Ops.lit 0.000060 * sec) * t, horner3 t π0 π1 (Ops.lit 0.03536 * sec),
    horner3 t p0 p1 (Ops.lit (-0.000006) * sec) * t)

/-- `NewEclipticPrecessor`.  v3/precess/precess.go:212-240. -/
def NewEclipticPrecessor (epochFrom epochTo : F) : EclipticPrecessor F :=
  let a := eclAngles epochFrom epochTo
  ⟨Ops.sin a.1, Ops.cos a.1, a.2.1, a.2.2⟩

/-- `EclipticPrecessor.Precess`, the value.  v3/precess/precess.go:246-263. -/
def eclPrecessVal (p : EclipticPrecessor F) (ecl : Ecliptic F) : Ecliptic F :=
  let sβ := Ops.sin ecl.Lat
  let cβ := Ops.cos ecl.Lat
  let sd := Ops.sin (p.π - ecl.Lon)
  let cd := Ops.cos (p.π - ecl.Lon)
  let A := p.cη * cβ * sd - p.sη * sβ
  let B := cβ * cd
  let C := p.cη * sβ + p.sη * cβ * sd
  ⟨p.p + p.π - Ops.atan2 A B, latOf A B C⟩

/-- `EclipticPrecessor.ReduceElements`, the value.  v3/precess/precess.go:270-283. -/
def reduceVal (p : EclipticPrecessor F) (e : Elements F) : Elements F :=
  let ψ := p.π + p.p
  let si := Ops.sin e.Inc
  let ci := Ops.cos e.Inc
  let snp := Ops.sin (e.Node - p.π)
  let cnp := Ops.cos (e.Node - p.π)
  ⟨Ops.acos (ci * p.cη + si * p.sη * cnp),
   e.Peri + Ops.atan2 (-p.sη * snp) (si * p.cη - ci * p.sη * cnp),
   ψ + Ops.atan2 (si * snp) (p.cη * si * cnp - p.sη * ci)⟩

/-- `elementequinox.ReduceB1950ToJ2000`, the value.  v3/elementequinox/elementequinox.go:28-43. -/
def reduceB1950Val (e : Elements F) : Elements F :=
  let S : F := Ops.lit 0.0001139788
  let C : F := Ops.lit 0.9999999935
  let W := e.Node - Ops.lit 174.298782 * deg
  let si := Ops.sin e.Inc
  let ci := Ops.cos e.Inc
  let sW := Ops.sin W
  let cW := Ops.cos W
  let A := si * sW
  let B := C * si * cW - S * ci
  ⟨Ops.asin (Ops.hypot A B), Ops.mod1 (e.Peri + Ops.atan2 (-S * sW) (C * si - S * ci * cW)),
   Ops.mod1 (Ops.lit 174.997194 * deg + Ops.atan2 A B)⟩

/-- `elementequinox.ReduceB1950FK4ToJ2000FK5`, the value.  v3/elementequinox/elementequinox.go:45-64. -/
def reduceFK4Val (e : Elements F) : Elements F :=
  let Lp : F := Ops.lit 4.50001688 * deg
  let L : F := Ops.lit 5.19856209 * deg
  let J : F := Ops.lit 0.00651966 * deg
  let W := L + e.Node
  let si := Ops.sin e.Inc
  let ci := Ops.cos e.Inc
  let sJ := Ops.sin J
  let cJ := Ops.cos J
  let sW := Ops.sin W
  let cW := Ops.cos W
  ⟨Ops.acos (ci * cJ - si * sJ * cW), Ops.mod1 (e.Peri + Ops.atan2 (sJ * sW) (si * cJ + ci * sJ * cW)),
   Ops.mod1 (Ops.atan2 (si * sW) (ci * sJ + si * cJ * cW) - Lp)⟩

/-- `ProperMotion3D`, the value.  v3/precess/precess.go:327-345. -/
def properMotion3DVal (eq : Equatorial F) (epochFrom epochTo r mr mα mδ : F) : Equatorial F :=
  let sα := Ops.sin eq.RA
  let cα := Ops.cos eq.RA
  let sδ := Ops.sin eq.Dec
  let cδ := Ops.cos eq.Dec
  let x := r * cδ * cα
  let y := r * cδ * sα
  let z := r * sδ
  let mrr := mr / r
  let zmδ := z * mδ
  let mx := x * mrr - zmδ * cα - y * mα
  let my := y * mrr - zmδ * sα + x * mα
  let mz := z * mrr + r * mδ * cδ
  let t := epochTo - epochFrom
  let xp := x + t * mx
  let yp := y + t * my
  let zp := z + t * mz
  ⟨Ops.mod1 (Ops.atan2 yp xp), Ops.atan2 zp (Ops.hypot xp yp)⟩

/-- `eqProperMotionToEcl` with the obliquity passed as its sine and cosine (the code takes nutation.MeanObliquity of the epoch,
v3/precess/precess.go:307-308) and `coord.EclToEq` inlined (v3/coord/coord.go:96-102).  v3/precess/precess.go:306-316. -/
def eqProperMotionToEcl (mα mδ sε cε : F) (pos : Ecliptic F) : F × F :=
  let α := Ops.mod1 (Ops.atan2 (Ops.sin pos.Lon * cε - Ops.sin pos.Lat / Ops.cos pos.Lat * sε) (Ops.cos pos.Lon))
  let δ := Ops.asin (Ops.sin pos.Lat * cε + Ops.cos pos.Lat * sε * Ops.sin pos.Lon)
  let sα := Ops.sin α
  let cα := Ops.cos α
  let sδ := Ops.sin δ
  let cδ := Ops.cos δ
  let cβ := Ops.cos pos.Lat
  ((mδ * (sε * cα) + mα * (cδ * (cε * cδ + sε * sδ * sα))) / (cβ * cβ),
   (mδ * (cε * cδ + sε * sδ * sα) - mα * (sε * cα * cδ)) / cβ)

/-- `EclipticPosition`, the value; the obliquity as for `eqProperMotionToEcl`.  v3/precess/precess.go:294-304. -/
def eclipticPositionVal (ecl : Ecliptic F) (epochFrom epochTo mα mδ sε cε : F) : Ecliptic F :=
  let p := NewEclipticPrecessor epochFrom epochTo
  if ¬ Ops.eq mα (Ops.lit 0) ∨ ¬ Ops.eq mδ (Ops.lit 0) then
    let m := eqProperMotionToEcl mα mδ sε cε ecl
    let t := epochTo - epochFrom
    eclPrecessVal p ⟨ecl.Lon + m.1 * t, ecl.Lat + m.2 * t⟩
  else eclPrecessVal p ecl

/-! ### Memory -/

/-- A memory holding structs of one type. -/
abbrev Heap (S : Type) := ℕ → S

/-- `p.RA = v`. -/
def setRA (h : Heap (Equatorial F)) (p : ℕ) (v : F) : Heap (Equatorial F) := fun a => if a = p then ⟨v, (h a).Dec⟩ else h a
/-- `p.Dec = v`. -/
def setDec (h : Heap (Equatorial F)) (p : ℕ) (v : F) : Heap (Equatorial F) := fun a => if a = p then ⟨(h a).RA, v⟩ else h a
/-- `p.Lon = v`. -/
def setLon (h : Heap (Ecliptic F)) (p : ℕ) (v : F) : Heap (Ecliptic F) := fun a => if a = p then ⟨v, (h a).Lat⟩ else h a
/-- `p.Lat = v`. -/
def setLat (h : Heap (Ecliptic F)) (p : ℕ) (v : F) : Heap (Ecliptic F) := fun a => if a = p then ⟨(h a).Lon, v⟩ else h a
/-- `p.Inc = v`. -/
def setInc (h : Heap (Elements F)) (p : ℕ) (v : F) : Heap (Elements F) := fun a => if a = p then ⟨v, (h a).Peri, (h a).Node⟩ else h a
/-- `p.Peri = v`. -/
def setPeri (h : Heap (Elements F)) (p : ℕ) (v : F) : Heap (Elements F) := fun a => if a = p then ⟨(h a).Inc, v, (h a).Node⟩ else h a
/-- `p.Node = v`. -/
def setNode (h : Heap (Elements F)) (p : ℕ) (v : F) : Heap (Elements F) := fun a => if a = p then ⟨(h a).Inc, (h a).Peri, v⟩ else h a

/-- `Precessor.Precess(eqFrom, eqTo)` on memory.  v3/precess/precess.go:153-170. -/
def Precess (p : Precessor F) (h : Heap (Equatorial F)) (eqFrom eqTo : ℕ) : Heap (Equatorial F) :=
  let sδ := Ops.sin (h eqFrom).Dec
  let cδ := Ops.cos (h eqFrom).Dec
  let sαζ := Ops.sin ((h eqFrom).RA + p.ζ)
  let cαζ := Ops.cos ((h eqFrom).RA + p.ζ)
  let A := cδ * sαζ
  let B := p.cθ * cδ * cαζ - p.sθ * sδ
  let C := p.sθ * cδ * cαζ + p.cθ * sδ
  let h := setRA h eqTo (Ops.mod1 (Ops.atan2 A B + p.z))
  if Ops.lt (Ops.abs C) cosSmallAngle then setDec h eqTo (Ops.asin C)
  else
    let h := setDec h eqTo (Ops.acos (Ops.hypot A B))
    if Ops.lt C (Ops.lit 0) then setDec h eqTo (-(h eqTo).Dec) else h

/-- `Position` on memory.  v3/precess/precess.go:180-186. -/
def Position (h : Heap (Equatorial F)) (eqFrom eqTo : ℕ) (epochFrom epochTo mα mδ : F) : Heap (Equatorial F) :=
  let p := NewPrecessor epochFrom epochTo
  let t := epochTo - epochFrom
  let h := setRA h eqTo (Ops.mod1 ((h eqFrom).RA + mα * t))
  let h := setDec h eqTo ((h eqFrom).Dec + mδ * t)
  Precess p h eqTo eqTo

/-- `ApproxPosition` on memory.  v3/precess/precess.go:80-86. -/
def ApproxPosition (h : Heap (Equatorial F)) (eqFrom eqTo : ℕ) (epochFrom epochTo mα mδ : F) : Heap (Equatorial F) :=
  let Δ := ApproxAnnualPrecession (h eqFrom) epochFrom epochTo
  let dy := epochTo - epochFrom
  let h := setRA h eqTo (Ops.mod1 ((h eqFrom).RA + (Δ.1 + mα) * dy))
  setDec h eqTo ((h eqFrom).Dec + (Δ.2 + mδ) * dy)

/-- `EclipticPrecessor.Precess` on memory.  v3/precess/precess.go:246-263. -/
def EclPrecess (p : EclipticPrecessor F) (h : Heap (Ecliptic F)) (eclFrom eclTo : ℕ) : Heap (Ecliptic F) :=
  let sβ := Ops.sin (h eclFrom).Lat
  let cβ := Ops.cos (h eclFrom).Lat
  let sd := Ops.sin (p.π - (h eclFrom).Lon)
  let cd := Ops.cos (p.π - (h eclFrom).Lon)
  let A := p.cη * cβ * sd - p.sη * sβ
  let B := cβ * cd
  let C := p.cη * sβ + p.sη * cβ * sd
  let h := setLon h eclTo (p.p + p.π - Ops.atan2 A B)
  if Ops.lt (Ops.abs C) cosSmallAngle then setLat h eclTo (Ops.asin C)
  else
    let h := setLat h eclTo (Ops.acos (Ops.hypot A B))
    if Ops.lt C (Ops.lit 0) then setLat h eclTo (-(h eclTo).Lat) else h

/-- `EclipticPosition` on memory.  v3/precess/precess.go:294-304. -/
def EclipticPosition (h : Heap (Ecliptic F)) (eclFrom eclTo : ℕ) (epochFrom epochTo mα mδ sε cε : F) : Heap (Ecliptic F) :=
  let p := NewEclipticPrecessor epochFrom epochTo
  let h : Heap (Ecliptic F) := fun a => if a = eclTo then h eclFrom else h a
  if ¬ Ops.eq mα (Ops.lit 0) ∨ ¬ Ops.eq mδ (Ops.lit 0) then
    let m := eqProperMotionToEcl mα mδ sε cε (h eclFrom)
    let t := epochTo - epochFrom
    let h := setLon h eclTo ((h eclTo).Lon + m.1 * t)
    let h := setLat h eclTo ((h eclTo).Lat + m.2 * t)
    EclPrecess p h eclTo eclTo
  else EclPrecess p h eclTo eclTo

/-- `ReduceElements` on memory.  v3/precess/precess.go:270-283. -/
def ReduceElements (p : EclipticPrecessor F) (h : Heap (Elements F)) (eFrom eTo : ℕ) : Heap (Elements F) :=
  let ψ := p.π + p.p
  let si := Ops.sin (h eFrom).Inc
  let ci := Ops.cos (h eFrom).Inc
  let snp := Ops.sin ((h eFrom).Node - p.π)
  let cnp := Ops.cos ((h eFrom).Node - p.π)
  let h := setInc h eTo (Ops.acos (ci * p.cη + si * p.sη * cnp))
  let h := setNode h eTo (ψ + Ops.atan2 (si * snp) (p.cη * si * cnp - p.sη * ci))
  setPeri h eTo ((h eFrom).Peri + Ops.atan2 (-p.sη * snp) (si * p.cη - ci * p.sη * cnp))

/-- `ReduceB1950ToJ2000` on memory.  v3/elementequinox/elementequinox.go:28-43. -/
def ReduceB1950ToJ2000 (h : Heap (Elements F)) (eFrom eTo : ℕ) : Heap (Elements F) :=
  let S : F := Ops.lit 0.0001139788
  let C : F := Ops.lit 0.9999999935
  let W := (h eFrom).Node - Ops.lit 174.298782 * deg
  let si := Ops.sin (h eFrom).Inc
  let ci := Ops.cos (h eFrom).Inc
  let sW := Ops.sin W
  let cW := Ops.cos W
  let A := si * sW
  let B := C * si * cW - S * ci
  let h := setInc h eTo (Ops.asin (Ops.hypot A B))
  let h := setNode h eTo (Ops.mod1 (Ops.lit 174.997194 * deg + Ops.atan2 A B))
  setPeri h eTo (Ops.mod1 ((h eFrom).Peri + Ops.atan2 (-S * sW) (C * si - S * ci * cW)))

/-- `ReduceB1950FK4ToJ2000FK5` on memory.  v3/elementequinox/elementequinox.go:53-64. -/
def ReduceB1950FK4ToJ2000FK5 (h : Heap (Elements F)) (eFrom eTo : ℕ) : Heap (Elements F) :=
  let Lp : F := Ops.lit 4.50001688 * deg
  let L : F := Ops.lit 5.19856209 * deg
  let J : F := Ops.lit 0.00651966 * deg
  let W := L + (h eFrom).Node
  let si := Ops.sin (h eFrom).Inc
  let ci := Ops.cos (h eFrom).Inc
  let sJ := Ops.sin J
  let cJ := Ops.cos J
  let sW := Ops.sin W
  let cW := Ops.cos W
  let h := setInc h eTo (Ops.acos (ci * cJ - si * sJ * cW))
  let h := setNode h eTo (Ops.mod1 (Ops.atan2 (si * sW) (ci * sJ + si * cJ * cW) - Lp))
  setPeri h eTo (Ops.mod1 ((h eFrom).Peri + Ops.atan2 (sJ * sW) (si * cJ + ci * sJ * cW)))

/-- `ProperMotion3D` on memory.  v3/precess/precess.go:327-345. -/
def ProperMotion3D (h : Heap (Equatorial F)) (eqFrom eqTo : ℕ) (epochFrom epochTo r mr mα mδ : F) : Heap (Equatorial F) :=
  let sα := Ops.sin (h eqFrom).RA
  let cα := Ops.cos (h eqFrom).RA
  let sδ := Ops.sin (h eqFrom).Dec
  let cδ := Ops.cos (h eqFrom).Dec
  let x := r * cδ * cα
  let y := r * cδ * sα
  let z := r * sδ
  let mrr := mr / r
  let zmδ := z * mδ
  let mx := x * mrr - zmδ * cα - y * mα
  let my := y * mrr - zmδ * sα + x * mα
  let mz := z * mrr + r * mδ * cδ
  let t := epochTo - epochFrom
  let xp := x + t * mx
  let yp := y + t * my
  let zp := z + t * mz
  let h := setRA h eqTo (Ops.mod1 (Ops.atan2 yp xp))
  setDec h eqTo (Ops.atan2 zp (Ops.hypot xp yp))

/-- `apparent.Position` on memory: `nut` and `aber` are apparent.Nutation and apparent.Aberration at the date of epochTo, pure
functions of right ascension and declination.  v3/apparent/apparent.go:86-94. -/
def ApparentPosition (nut aber : F → F → F × F) (h : Heap (Equatorial F)) (eqFrom eqTo : ℕ) (epochFrom epochTo mα mδ : F) :
    Heap (Equatorial F) :=
  let h := Position h eqFrom eqTo epochFrom epochTo mα mδ
  let Δ1 := nut (h eqTo).RA (h eqTo).Dec
  let Δ2 := aber (h eqTo).RA (h eqTo).Dec
  let h := setRA h eqTo (Ops.mod1 ((h eqTo).RA + (Δ1.1 + Δ2.1)))
  setDec h eqTo ((h eqTo).Dec + (Δ1.2 + Δ2.2))

/-- `apparent.Position`, the value. -/
def apparentPositionVal (nut aber : F → F → F × F) (eq : Equatorial F) (epochFrom epochTo mα mδ : F) : Equatorial F :=
  let q := positionVal eq epochFrom epochTo mα mδ
  let Δ1 := nut q.RA q.Dec
  let Δ2 := aber q.RA q.Dec
  ⟨Ops.mod1 (q.RA + (Δ1.1 + Δ2.1)), q.Dec + (Δ1.2 + Δ2.2)⟩

/-- `apparent.PositionRonVondrak` on memory: `aber` is AberrationRonVondrak and `nut` Nutation at the date of epochTo.
v3/apparent/apparent.go:300-313. -/
def PositionRonVondrak (nut aber : F → F → F × F) (h : Heap (Equatorial F)) (eqFrom eqTo : ℕ) (epochTo mα mδ : F) :
    Heap (Equatorial F) :=
  let t := epochTo - Ops.lit 2000
  let h := setRA h eqTo (Ops.mod1 ((h eqFrom).RA + mα * t))
  let h := setDec h eqTo ((h eqFrom).Dec + mδ * t)
  let Δ := aber (h eqTo).RA (h eqTo).Dec
  let h := setRA h eqTo (Ops.mod1 ((h eqTo).RA + Δ.1))
  let h := setDec h eqTo ((h eqTo).Dec + Δ.2)
  let h := Position h eqTo eqTo (Ops.lit 2000) epochTo (Ops.lit 0) (Ops.lit 0)
  let Δ1 := nut (h eqTo).RA (h eqTo).Dec
  let h := setRA h eqTo (Ops.mod1 ((h eqTo).RA + Δ1.1))
  setDec h eqTo ((h eqTo).Dec + Δ1.2)

/-- `apparent.PositionRonVondrak`, the value. -/
def positionRonVondrakVal (nut aber : F → F → F × F) (eq : Equatorial F) (epochTo mα mδ : F) : Equatorial F :=
  let t := epochTo - Ops.lit 2000
  let α := Ops.mod1 (eq.RA + mα * t)
  let δ := eq.Dec + mδ * t
  let Δ := aber α δ
  let q := positionVal ⟨Ops.mod1 (α + Δ.1), δ + Δ.2⟩ (Ops.lit 2000) epochTo (Ops.lit 0) (Ops.lit 0)
  let Δ1 := nut q.RA q.Dec
  ⟨Ops.mod1 (q.RA + Δ1.1), q.Dec + Δ1.2⟩

end Verif.Model.Precess
