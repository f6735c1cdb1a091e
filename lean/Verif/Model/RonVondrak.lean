import Verif.Model.Apparent
import Verif.Model.Solar
/-
Model of the parts of package apparent (v3/apparent/apparent.go) that compute the aberration from the date: the table rvTerm of Ron and Vondrák
and the calls of packages solar and nutation.  Exact real arithmetic, radians.
-/
namespace Verif.Model.Apparent

open Real Verif.Go Verif.Model.Nutation

/-- `perihelion`.  v3/apparent/apparent.go:38-40. -/
noncomputable def perihelion (T : ℝ) : ℝ := hornerR T [102.93735, 1.71946, 0.00046] * deg

/-- `EclipticAberration` with the quantities of the date.  v3/apparent/apparent.go:44-56. -/
noncomputable def EclipticAberrationJD (l β jd : ℝ) : ℝ × ℝ :=
  let T := J2000Century jd
  EclipticAberration (Solar.TrueLon T).1 (Solar.Eccentricity T) (perihelion T) l β

/-- `Aberration` with the quantities of the date.  v3/apparent/apparent.go:60-79. -/
noncomputable def AberrationJD (α δ jd : ℝ) : ℝ × ℝ :=
  let T := J2000Century jd
  Aberration (MeanObliquity jd) (Solar.TrueLon T).1 (Solar.Eccentricity T) (perihelion T) α δ

/-- Type `rv`.  v3/apparent/apparent.go:132-134. -/
structure RV where
  (T L2 L3 L4 L5 L6 L7 L8 Lp D Mp F : ℝ)

/-- The value of type `rv` at a time.  v3/apparent/apparent.go:99-113. -/
noncomputable def rvAt (T : ℝ) : RV where
  T := T
  L2 := 3.1761467 + 1021.3285546 * T
  L3 := 1.7534703 + 628.3075849 * T
  L4 := 6.2034809 + 334.0612431 * T
  L5 := 0.5995465 + 52.9690965 * T
  L6 := 0.8740168 + 21.3299095 * T
  L7 := 5.4812939 + 7.4781599 * T
  L8 := 5.3118863 + 3.8133036 * T
  Lp := 3.8103444 + 8399.6847337 * T
  D := 5.1984667 + 7771.3771486 * T
  Mp := 2.3555559 + 8328.6914289 * T
  F := 1.6279052 + 8433.4661601 * T

/-- `rvTerm`.  v3/apparent/apparent.go:138-291. -/
noncomputable def rvTerm : List (RV → ℝ × ℝ × ℝ) := [
  fun r => -- 1, line 139
    let A := r.L3
    ((-1719914 - 2 * r.T) * sin A - 25 * cos A,
     (25 - 13 * r.T) * sin A + (1578089 + 156 * r.T) * cos A,
     (10 + 32 * r.T) * sin A + (684185 - 358 * r.T) * cos A),
  fun r => -- 2, line 145
    let A := 2 * r.L3
    ((6434 + 141 * r.T) * sin A + (28007 - 107 * r.T) * cos A,
     (25697 - 95 * r.T) * sin A + (-5904 - 130 * r.T) * cos A,
     (11141 - 48 * r.T) * sin A + (-2559 - 55 * r.T) * cos A),
  fun r => -- 3, line 151
    let A := r.L5
    (715 * sin A,
     6 * sin A - 657 * cos A,
     -15 * sin A - 282 * cos A),
  fun r => -- 4, line 155
    let A := r.Lp
    (715 * sin A,
     -656 * cos A,
     -285 * cos A),
  fun r => -- 5, line 159
    let A := 3 * r.L3
    ((486 - 5 * r.T) * sin A + (-236 - 4 * r.T) * cos A,
     (-216 - 4 * r.T) * sin A + (-446 + 5 * r.T) * cos A,
     -94 * sin A - 193 * cos A),
  fun r => -- 6, line 165
    let A := r.L6
    (159 * sin A,
     2 * sin A - 147 * cos A,
     -6 * sin A - 61 * cos A),
  fun r => -- 7, line 169
    let A := r.F
    (0,
     26 * cos A,
     -59 * cos A),
  fun r => -- 8, line 173
    let A := r.Lp + r.Mp
    (39 * sin A,
     -36 * cos A,
     -16 * cos A),
  fun r => -- 9, line 177
    let A := 2 * r.L5
    (33 * sin A - 10 * cos A,
     -9 * sin A - 30 * cos A,
     -5 * sin A - 13 * cos A),
  fun r => -- 10, line 181
    let A := 2 * r.L3 - r.L5
    (31 * sin A + cos A,
     sin A - 28 * cos A,
     -12 * cos A),
  fun r => -- 11, line 185
    let A := 3 * r.L3 - 8 * r.L4 + 3 * r.L5
    (8 * sin A - 28 * cos A,
     25 * sin A + 8 * cos A,
     11 * sin A + 3 * cos A),
  fun r => -- 12, line 189
    let A := 5 * r.L3 - 8 * r.L4 + 3 * r.L5
    (8 * sin A - 28 * cos A,
     -25 * sin A - 8 * cos A,
     -11 * sin A + -3 * cos A),
  fun r => -- 13, line 193
    let A := 2 * r.L2 - r.L3
    (21 * sin A,
     -19 * cos A,
     -8 * cos A),
  fun r => -- 14, line 197
    let A := r.L2
    (-19 * sin A,
     17 * cos A,
     8 * cos A),
  fun r => -- 15, line 201
    let A := r.L7
    (17 * sin A,
     -16 * cos A,
     -7 * cos A),
  fun r => -- 16, line 205
    let A := r.L3 - 2 * r.L5
    (16 * sin A,
     15 * cos A,
     sin A + 7 * cos A),
  fun r => -- 17, line 209
    let A := r.L8
    (16 * sin A,
     sin A - 15 * cos A,
     -3 * sin A - 6 * cos A),
  fun r => -- 18, line 213
    let A := r.L3 + r.L5
    (11 * sin A - cos A,
     -sin A - 10 * cos A,
     -sin A - 5 * cos A),
  fun r => -- 19, line 217
    let A := 2 * r.L2 - 2 * r.L3
    (-11 * cos A,
     -10 * sin A,
     -4 * sin A),
  fun r => -- 20, line 221
    let A := r.L3 - r.L5
    (-11 * sin A - 2 * cos A,
     -2 * sin A + 9 * cos A,
     -sin A + 4 * cos A),
  fun r => -- 21, line 225
    let A := 4 * r.L3
    (-7 * sin A - 8 * cos A,
     -8 * sin A + 6 * cos A,
     -3 * sin A + 3 * cos A),
  fun r => -- 22, line 229
    let A := 3 * r.L3 - 2 * r.L5
    (-10 * sin A,
     9 * cos A,
     4 * cos A),
  fun r => -- 23, line 233
    let A := r.L2 - 2 * r.L3
    (-9 * sin A,
     -9 * cos A,
     -4 * cos A),
  fun r => -- 24, line 237
    let A := 2 * r.L2 - 3 * r.L3
    (-9 * sin A,
     -8 * cos A,
     -4 * cos A),
  fun r => -- 25, line 241
    let A := 2 * r.L6
    (-9 * cos A,
     -8 * sin A,
     -3 * sin A),
  fun r => -- 26, line 245
    let A := 2 * r.L2 - 4 * r.L3
    (-9 * cos A,
     8 * sin A,
     3 * sin A),
  fun r => -- 27, line 249
    let A := 3 * r.L3 - 2 * r.L4
    (8 * sin A,
     -8 * cos A,
     -3 * cos A),
  fun r => -- 28, line 253
    let A := r.Lp + 2 * r.D - r.Mp
    (8 * sin A,
     -7 * cos A,
     -3 * cos A),
  fun r => -- 29, line 257
    let A := 8 * r.L2 - 12 * r.L3
    (-4 * sin A - 7 * cos A,
     -6 * sin A + 4 * cos A,
     -3 * sin A + 2 * cos A),
  fun r => -- 30, line 261
    let A := 8 * r.L2 - 14 * r.L3
    (-4 * sin A - 7 * cos A,
     6 * sin A - 4 * cos A,
     3 * sin A - 2 * cos A),
  fun r => -- 31, line 265
    let A := 2 * r.L4
    (-6 * sin A - 5 * cos A,
     -4 * sin A + 5 * cos A,
     -2 * sin A + 2 * cos A),
  fun r => -- 32, line 269
    let A := 3 * r.L2 - 4 * r.L3
    (-sin A - cos A,
     -2 * sin A - 7 * cos A,
     sin A - 4 * cos A),
  fun r => -- 33, line 273
    let A := 2 * r.L3 - 2 * r.L5
    (4 * sin A - 6 * cos A,
     -5 * sin A - 4 * cos A,
     -2 * sin A - 2 * cos A),
  fun r => -- 34, line 277
    let A := 3 * r.L2 - 3 * r.L3
    (-7 * cos A,
     -6 * sin A,
     -3 * sin A),
  fun r => -- 35, line 281
    let A := 2 * r.L3 - 2 * r.L4
    (5 * sin A - 5 * cos A,
     -4 * sin A - 5 * cos A,
     -2 * sin A - 2 * cos A),
  fun r => -- 36, line 285
    let A := r.Lp - 2 * r.D
    (5 * sin A,
     -5 * cos A,
     -2 * cos A)]

/-- The loop over the table, last row first: (Xp, Yp, Zp).  v3/apparent/apparent.go:114-121. -/
noncomputable def rvSum (r : RV) : ℝ × ℝ × ℝ :=
  rvTerm.foldr (fun f a => (a.1 + (f r).1, a.2.1 + (f r).2.1, a.2.2 + (f r).2.2)) (0, 0, 0)

/-- `AberrationRonVondrak` with the sums of the date.  v3/apparent/apparent.go:98-128. -/
noncomputable def AberrationRonVondrakJD (α δ jd : ℝ) : ℝ × ℝ :=
  let v := rvSum (rvAt (J2000Century jd))
  AberrationRonVondrak v.1 v.2.1 v.2.2 α δ

end Verif.Model.Apparent
