import Verif.Go.FloatExpr
import Verif.Model.Deltat
/-
Mean elements of the orbits of the planets (v3/planetelements/planetelements.go) in double precision.  `fd` is unit.AngleFromDeg and `red` is Angle.Mod1.
-/
namespace Verif.Model.Elements64

open Verif.Go.F64 Verif.Go.F64.Ex

/-- `c6`, coefficients in units of the eleventh decimal.  v3/planetelements/planetelements.go:41-43. -/
structure C6 where
  L : List ℤ
  a : List ℤ
  e : List ℤ
  i : List ℤ
  Ω : List ℤ
  ϖ : List ℤ

/-- `cMean`, Mercury to Neptune.  v3/planetelements/planetelements.go:46-111. -/
def cMean : List C6 :=
  [⟨[25225090600000, 14947407224910000, 30350000, 1800], [38709831000], [20563175000, 2040700, -2830, -18],
     [700498600000, 182150000, -1810000, 5600], [4833089300000, 118618830000, 17542000, 21500], [7745611900000, 155647760000, 29544000, 900]⟩,
   ⟨[18197980100000, 5851921303020000, 31014000, 1500], [72332982000], [677192000, -4776500, 9810, 46],
     [339466200000, 100370000, -88000, -700], [7667992000000, 90112060000, 40618000, -9300], [13156370300000, 140222880000, -107618000, -567800]⟩,
   ⟨[10046645700000, 3600076982780000, 30322000, 2000], [100000101800], [1670863000, -4203700, -12670, 14],
     [0], [], [10293734800000, 171953660000, 45688000, -1800]⟩,
   ⟨[35543300000000, 1914169644710000, 31052000, 1600], [152367934200], [9340065000, 9048400, -8060, -25],
     [184972600000, -60110000, 1276000, -700], [4955809300000, 77209590000, 1557000, 226700], [33606023400000, 184104490000, 13477000, 53600]⟩,
   ⟨[3435151900000, 303630277480000, 22330000, 3700], [520260320900, 19130], [4849793000, 16322500, -47140, -201],
     [130326700000, -549650000, 466000, -200], [10046440700000, 102097740000, 40315000, 40400], [1433120700000, 161263520000, 103042000, -446400]⟩,
   ⟨[5007744400000, 122351106860000, 51908000, -3000], [955490919200, -213900, 400], [5554814000, -34664100, -64360, 340],
     [248887900000, -373620000, -1519000, 8700], [11366550300000, 87708800000, -12176000, -224900], [9305723700000, 196376130000, 83753000, 492800]⟩,
   ⟨[31405500500000, 42986405610000, 30390000, 2600], [1921844606200, -3720, 98], [4638122000, -2729300, 7890, 24],
     [77319700000, 77440000, 3749000, -9200], [7400595700000, 52112780000, 133947000, 1848400], [17300529100000, 148637900000, 21406000, 43400]⟩,
   ⟨[30434866500000, 21988330920000, 30882000, 1800], [3011038686900, -16630, 69], [945575000, 603300, 0, -5],
     [176995300000, -930820000, -708000, 2700], [13178405700000, 110220390000, 25952000, -63700], [4812027600000, 142629570000, 38434000, 2000]⟩]

/-- `base.Horner(T, c...)` with `T := base.J2000Century(jde)`; variable 0 is jde − J2000.  v3/planetelements/planetelements.go:123-130, v3/base/julian.go:52-60. -/
def poly (c : List ℤ) : Ex := horner (v 0 / q 36525 1) (c.map fun n => q n 100000000000)

/-- `Horner l jde c x`: x may be computed; `none` is the panic for an empty list. -/
def Horner (l : Trig) (jde : ℝ) (c : List ℤ) (x : Option ℝ) : Prop :=
  if c = [] then x = none else ∃ y, Run l (fun _ => fl (jde - 2451545)) (poly c) y ∧ x = some y

/-- `Mean`; `none` is a panic.  v3/planetelements/planetelements.go:122-131. -/
def Mean (l : Trig) (fd red : ℝ → ℝ) (p : ℕ) (jde : ℝ) (out : Option PlanetElements.Elements) : Prop :=
  match cMean[p]? with
  | none => out = none
  | some k => ∃ L a e i Ω ϖ, Horner l jde k.L L ∧ Horner l jde k.a a ∧ Horner l jde k.e e ∧ Horner l jde k.i i ∧ Horner l jde k.Ω Ω ∧ Horner l jde k.ϖ ϖ ∧
      out = (do
        let L ← L
        let a ← a
        let e ← e
        let i ← i
        let Ω ← Ω
        let ϖ ← ϖ
        pure ⟨red (fd L), a, e, fd i, fd Ω, fd ϖ⟩)

/-- `Inc`.  v3/planetelements/planetelements.go:137-139. -/
def Inc (l : Trig) (fd : ℝ → ℝ) (p : ℕ) (jde : ℝ) (out : Option ℝ) : Prop :=
  match cMean[p]? with
  | none => out = none
  | some k => ∃ i, Horner l jde k.i i ∧ out = i.map fd

/-- `Node`.  v3/planetelements/planetelements.go:145-147. -/
def Node (l : Trig) (fd : ℝ → ℝ) (p : ℕ) (jde : ℝ) (out : Option ℝ) : Prop :=
  match cMean[p]? with
  | none => out = none
  | some k => ∃ Ω, Horner l jde k.Ω Ω ∧ out = Ω.map fd

end Verif.Model.Elements64
