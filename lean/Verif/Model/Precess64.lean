import Verif.Model.Sep64
/-
Rigorous precession (v3/precess/precess.go) in double precision.  Variables 0 and 1 are the epochs, 2 and 3 the coordinates in radians.  Expressions are those of
the code, operation by operation; a function is the relation between its arguments and what it may return.  A value the code computes once and uses in
several places may here be rounded differently in each place, which only adds possible results.
-/
namespace Verif.Model.Precess64

open Verif.Go.F64 Verif.Go.F64.Ex

/-- A constant n/d seconds of arc, `n/d * s`.  v3/precess/precess.go:99-100. -/
def sec (n : ℤ) (d : ℕ) : Ex := p n (d * 648000)

/-- `T`.  v3/precess/precess.go:124. -/
def T : Ex := (v 0 - q 2000 1) * q 1 100

/-- `t`.  v3/precess/precess.go:138. -/
def t : Ex := (v 1 - v 0) * q 1 100

/-- The polynomial `base.Horner(t, c...) * t`; y: the initial epoch is not 2000.  v3/precess/precess.go:110-144. -/
def ζ (y : Bool) : Ex :=
  if y then horner t [horner T [sec 23062181 10000, sec 139656 100000, sec (-139) 1000000], sec 30188 100000 - sec 344 1000000 * T, sec 17998 1000000] * t
  else horner t [sec 23062181 10000, sec 30188 100000, sec 17998 1000000] * t

/-- `z`.  v3/precess/precess.go:110-144. -/
def z (y : Bool) : Ex :=
  if y then horner t [horner T [sec 23062181 10000, sec 139656 100000, sec (-139) 1000000], sec 109468 100000 + sec 66 1000000 * T, sec 18203 1000000] * t
  else horner t [sec 23062181 10000, sec 109468 100000, sec 18203 1000000] * t

/-- `θ`.  v3/precess/precess.go:110-144. -/
def θ (y : Bool) : Ex :=
  if y then horner t [horner T [sec 20043109 10000, sec (-8533) 10000, sec (-217) 1000000], sec (-42665) 100000 - sec 217 1000000 * T, sec (-41833) 1000000] * t
  else horner t [sec 20043109 10000, sec (-42665) 100000, sec (-41833) 1000000] * t

/-- `A` of `Precess`.  v3/precess/precess.go:155-157. -/
def A (y : Bool) : Ex := cos (v 3) * sin (v 2 + ζ y)

/-- `B` of `Precess`.  v3/precess/precess.go:158. -/
def B (y : Bool) : Ex := cos (θ y) * cos (v 3) * cos (v 2 + ζ y) - sin (θ y) * sin (v 3)

/-- `C` of `Precess`.  v3/precess/precess.go:159. -/
def C (y : Bool) : Ex := sin (θ y) * cos (v 3) * cos (v 2 + ζ y) + cos (θ y) * sin (v 3)

/-- The latitude from the components; s is base.CosSmallAngle.  `none` is NaN.  v3/precess/precess.go:161-168, 254-261. -/
noncomputable def lat (f : Sep64.Inv) (s a b c : ℝ) : Option ℝ :=
  if |c| < s then (if |c| ≤ 1 then some (f.asin c) else none)
  else (if |f.hypot a b| ≤ 1 then some (if c < 0 then -f.acos (f.hypot a b) else f.acos (f.hypot a b)) else none)

/-- `NewPrecessor(e0, e1).Precess`; `red` is unit.RAFromRad.  v3/precess/precess.go:121-170. -/
def Precess (l : Trig) (f : Sep64.Inv) (red : ℝ → ℝ) (s e0 e1 α δ ra : ℝ) (dec : Option ℝ) : Prop :=
  ∃ y : Bool, (y = true ↔ e0 ≠ 2000) ∧ ∃ a b c w, Run l (Sep64.args e0 e1 α δ) (A y) a ∧ Run l (Sep64.args e0 e1 α δ) (B y) b ∧
    Run l (Sep64.args e0 e1 α δ) (C y) c ∧ Run l (Sep64.args e0 e1 α δ) (z y) w ∧ ra = red (fl (f.atan2 a b + w)) ∧ dec = lat f s a b c

/-- `η` of the ecliptic precession.  v3/precess/precess.go:213-243. -/
def η (y : Bool) : Ex :=
  if y then horner t [horner T [sec 470029 10000, sec (-6603) 100000, sec 598 1000000], sec (-3302) 100000 + sec 598 1000000 * T, sec 60 1000000] * t
  else horner t [sec 470029 10000, sec (-3302) 100000, sec 60 1000000] * t

/-- `π` of the ecliptic precession.  v3/precess/precess.go:213-243. -/
def Pi (y : Bool) : Ex :=
  if y then horner t [horner T [p 174876384 180000000, sec 32894789 10000, sec 60622 100000], sec (-8698089) 10000 - sec 50491 100000 * T, sec 3536 100000]
  else horner t [p 174876384 180000000, sec (-8698089) 10000, sec 3536 100000]

/-- `p` of the ecliptic precession.  v3/precess/precess.go:213-243. -/
def pp (y : Bool) : Ex :=
  if y then horner t [horner T [sec 50290966 10000, sec 222226 100000, sec (-42) 1000000], sec 111113 100000 - sec 42 1000000 * T, sec (-6) 1000000] * t
  else horner t [sec 50290966 10000, sec 111113 100000, sec (-6) 1000000] * t

/-- `A` of the ecliptic `Precess`; variables 2 and 3 are longitude and latitude.  v3/precess/precess.go:248-250. -/
def A' (y : Bool) : Ex := cos (η y) * cos (v 3) * sin (Pi y - v 2) - sin (η y) * sin (v 3)

/-- `B`.  v3/precess/precess.go:251. -/
def B' (y : Bool) : Ex := cos (v 3) * cos (Pi y - v 2)

/-- `C`.  v3/precess/precess.go:252. -/
def C' (y : Bool) : Ex := cos (η y) * sin (v 3) + sin (η y) * cos (v 3) * sin (Pi y - v 2)

/-- `NewEclipticPrecessor(e0, e1).Precess`.  v3/precess/precess.go:207-263. -/
def EclPrecess (l : Trig) (f : Sep64.Inv) (s e0 e1 lon β out : ℝ) (latitude : Option ℝ) : Prop :=
  ∃ y : Bool, (y = true ↔ e0 ≠ 2000) ∧ ∃ a b c w, Run l (Sep64.args e0 e1 lon β) (A' y) a ∧ Run l (Sep64.args e0 e1 lon β) (B' y) b ∧
    Run l (Sep64.args e0 e1 lon β) (C' y) c ∧ Run l (Sep64.args e0 e1 lon β) (pp y + Pi y) w ∧ out = fl (w - f.atan2 a b) ∧ latitude = lat f s a b c

end Verif.Model.Precess64
