import Verif.Model.Interp
import Verif.Model.Angle
/-
Models of package conjunction (v3/conjunction/conjunction.go) and of the minimum separations of package angle
(v3/angle/angle.go).  Exact real arithmetic, angles in radians.
-/
namespace Verif.Model.Conjunction

open Real Verif.Go

/-- The errors: wrong number of rows, or an error of package interp. -/
inductive Err where
  | rows
  | interp (e : Interp.Err)

/-- `conj`.  v3/conjunction/conjunction.go:62-75. -/
noncomputable def conj (t1 t5 : ℝ) (dr dd : List ℝ) : Except Err (ℝ × ℝ) :=
  match Interp.NewLen5 t1 t5 dr with
  | .error e => .error (.interp e)
  | .ok l5 =>
    match l5.Zero true with
    | .error e => .error (.interp e)
    | .ok t =>
      match Interp.NewLen5 t1 t5 dd with
      | .error e => .error (.interp e)
      | .ok l5' =>
        match l5'.InterpolateXStrict t with
        | .error e => .error (.interp e)
        | .ok Δd => .ok (t, Δd)

/-- `Planetary`.  v3/conjunction/conjunction.go:30-42. -/
noncomputable def Planetary (t1 t5 : ℝ) (r1 d1 r2 d2 : List ℝ) : Except Err (ℝ × ℝ) :=
  if r1.length ≠ 5 ∨ d1.length ≠ 5 ∨ r2.length ≠ 5 ∨ d2.length ≠ 5 then .error .rows
  else conj t1 t5 (List.zipWith (· - ·) r2 r1) (List.zipWith (· - ·) d2 d1)

/-- `Stellar`.  v3/conjunction/conjunction.go:48-60. -/
noncomputable def Stellar (t1 t5 r1 d1 : ℝ) (r2 d2 : List ℝ) : Except Err (ℝ × ℝ) :=
  if r2.length ≠ 5 ∨ d2.length ≠ 5 then .error .rows
  else conj t1 t5 (r2.map (· - r1)) (d2.map (· - d1))

end Verif.Model.Conjunction

namespace Verif.Model.Angle

open Real Verif.Go

/-- The separations of the rows in `MinSep`.  v3/angle/angle.go:53-56. -/
noncomputable def seps (r1 d1 r2 d2 : List ℝ) : List ℝ :=
  List.zipWith (fun p q => Sep p.1 p.2 q.1 q.2) (r1.zip d1) (r2.zip d2)

/-- `MinSep`.  v3/angle/angle.go:49-63. -/
noncomputable def MinSep (jd1 jd3 : ℝ) (r1 d1 r2 d2 : List ℝ) : Except Interp.Err ℝ :=
  if r1.length ≠ 3 ∨ d1.length ≠ 3 ∨ r2.length ≠ 3 ∨ d2.length ≠ 3 then .error .Not3
  else
    match Interp.NewLen3 jd1 jd3 (seps r1 d1 r2 d2) with
    | .error e => .error e
    | .ok d3 =>
      match d3.Extremum with
      | .error e => .error e
      | .ok (_, dMin) => .ok dMin

/-- The closure `uv` of `MinSepRect`.  v3/angle/angle.go:73-83. -/
noncomputable def uv (r1 d1 r2 d2 : ℝ) : ℝ × ℝ :=
  let Δr := r2 - r1
  let tΔr := tan Δr
  let thΔr := tan (Δr / 2)
  let K := 1 / (1 + sin d1 * sin d1 * tΔr * thΔr)
  let sΔd := sin (d2 - d1)
  (-K * (1 - (sin d1 / cos d1) * sΔd) * cos d1 * tΔr, K * (sΔd + sin d1 * cos d1 * tΔr * thΔr))

/-- The outcomes of `MinSepRect`: wrong lengths, or no convergence in ten rounds. -/
inductive RectErr where
  | Not3
  | noConverge

/-- The value of `Len3.InterpolateN` for the table `y0, y1, y2`.  v3/interp/interp.go:57-78, 134-136. -/
noncomputable def at3 (y0 y1 y2 n : ℝ) : ℝ := y1 + n * 0.5 * ((y1 - y0) + (y2 - y1) + n * ((y2 - y1) - (y1 - y0)))

/-- The loop of `MinSepRect`.  v3/angle/angle.go:101-112.  Where the derivative vanishes the quotient is 0/0, that is NaN, which
then spreads to everything and no later comparison succeeds. -/
noncomputable def rectLoop (u0 u1 u2 v0 v1 v2 : ℝ) : Nat → ℝ → ℝ → Except RectErr ℝ
  | 0, _, _ => .error .noConverge
  | limit + 1, n, dn =>
    let u := at3 u0 u1 u2 n
    let v := at3 v0 v1 v2 n
    if |dn| < 1e-5 then .ok (hypot u v)
    else
      let up := (u2 - u0) / 2 + n * (u0 + u2 - 2 * u1)
      let vp := (v2 - v0) / 2 + n * (v0 + v2 - 2 * v1)
      if up * up + vp * vp = 0 then .error .noConverge
      else
        let dn := -(u * up + v * vp) / (up * up + vp * vp)
        rectLoop u0 u1 u2 v0 v1 v2 limit (n + dn) dn

/-- `MinSepRect`.  v3/angle/angle.go:69-114. -/
noncomputable def MinSepRect (r1 d1 r2 d2 : List ℝ) : Except RectErr ℝ :=
  match List.zipWith (fun p q => uv p.1 p.2 q.1 q.2) (r1.zip d1) (r2.zip d2), r1.length, d1.length, r2.length, d2.length with
  | [(u0, v0), (u1, v1), (u2, v2)], 3, 3, 3, 3 =>
    let up := (u2 - u0) / 2
    let vp := (v2 - v0) / 2
    if up * up + vp * vp = 0 then .error .noConverge
    else
      let dn := -(u1 * up + v1 * vp) / (up * up + vp * vp)
      rectLoop u0 u1 u2 v0 v1 v2 10 dn dn
  | _, _, _, _, _ => .error .Not3

end Verif.Model.Angle
